# Which Go function is modelled where

Generated by tools/coverage.py from the citations in lean/Verif/Model (module.definition).  221 functions are modelled, 6 are not;
the programs under example/ (Model/Examples.lean, CanvasCustom.lean) and the tests are not part of the library and are left out.

| function | name | model |
|---|---|---|
| .issues/106/issue.go:24 | `main` | `Issues.options106`, `Issues.writerOption` |
| .issues/69/issue.go:30 | `main` | `Issues.content69` |
| .issues/69/issue.go:52 | `encodeWithSkip2` | not modelled (another library) |
| .issues/69/issue.go:73 | `CustomPngEncoder.Encode` | not modelled (never called) |
| .issues/69/issue.go:78 | `encodeWithYeqown` | `Issues.options69`, `Issues.writerOption` |
| .issues/69/issue.go:104 | `encodeWithYeqownCompression` | `Issues.options69`, `Issues.writerOption` |
| chardet.go:29 | `analyzeEncodeModeFromRaw` | `Chardet.getNextAnalyzeFn`, `Chardet.reAnalyze`, `Chardet.analyzeLoop`, `Chardet.analyzeEncodeModeFromRaw` |
| chardet.go:87 | `analyzeNum` | `Chardet.analyzeNum` |
| chardet.go:92 | `analyzeAlphaNum` | `Chardet.analyzeAlphaNum` |
| chardet.go:104 | `analyzeByte` | `Chardet.analyzeByte` |
| chardet.go:115 | `analyzeJP` | `Chardet.Ext`, `Chardet.isCJK`, `Chardet.inKanjiRange`, `Chardet.analyzeJP` |
| cmd/qrcode/app.go:29 | `newApp` | `Cli.parse`, `Cli.run` (the action; names, versions and authors are not modelled) |
| cmd/qrcode/app.go:51 | `generate` | `Cli.run` |
| cmd/qrcode/app.go:99 | `fileOutputOptions.applyOptions` | `Cli.FileOutputOptions.applyOptions` |
| cmd/qrcode/app.go:131 | `parseGenerateContextFrom` | `Cli.Flags`, `Cli.parseBorders`, `Cli.parse` |
| cmd/qrcode/app.go:169 | `prepareFlags` | `CliFlags.defaultFlags` |
| cmd/qrcode/main.go:7 | `main` | not modelled (calls `app.Run`) |
| cmd/wasm/main.go:15 | `main` | not modelled (registers `genqrcode`) |
| cmd/wasm/main.go:36 | `genqrcode` | `Wasm.zeroOption`, `Wasm.genqrcode` |
| cmd/wasm/types.go:40 | `optionFromJSValue` | `Wasm.optionFromJSValue` |
| cmd/wasm/types.go:66 | `genOption.validate` | `Wasm.genqrcode` (it accepts everything) |
| cmd/wasm/types.go:74 | `genOption.encodeOptions` | `Wasm.encodeOptions` |
| cmd/wasm/types.go:110 | `genOption.outputOptions` | `Wasm.outputOptions` |
| cmd/wasm/types.go:156 | `genResult.setError` | `Wasm.GenResult` |
| cmd/wasm/types.go:161 | `genResult.setImage` | `Wasm.GenResult` |
| cmd/wasm/types.go:166 | `genResult.JSValue` | `Wasm.GenResult` |
| cmd/wasm/types.go:178 | `nopCloser.Close` | `Wasm.genqrcode` (no effect) |
| debug.go:20 | `debugEnabled` | `Debug.enabling`, `Debug.debugEnabled` |
| debug.go:34 | `SetDebugMode` | `Debug.setDebugMode` |
| debug.go:38 | `debugLogf` | not modelled (log output; off by default) |
| debug.go:45 | `debugDraw` | `Files.debugSave` |
| debug.go:61 | `debugDrawTo` | `Debug.rectangle`, `Debug.debugPicture`, `Files.debugSave` |
| encoder.go:63 | `getEncModeName` | `EncodeOption.getEncModeName` |
| encoder.go:81 | `getEncodeModeIndicator` | `Encoder.getEncodeModeIndicator` |
| encoder.go:109 | `newEncoder` | `Encoder.newEncoder` |
| encoder.go:127 | `encoder.Encode` | `Encoder.charCount`, `Encoder.encodePayload`, `Encoder.encode` |
| encoder.go:175 | `encoder.encodeNumeric` | `Encoder.digitVal`, `Encoder.encodeNumeric` |
| encoder.go:196 | `encoder.encodeAlphanumeric` | `Encoder.encodeAlphanumeric` |
| encoder.go:220 | `encoder.encodeByte` | `Encoder.encodeByte` |
| encoder.go:233 | `toShiftJIS` | `Chardet.Ext`, `Encoder.shiftJISPairs`, `Encoder.toShiftJIS` |
| encoder.go:261 | `encodeShiftJIS` | `Encoder.encodeShiftJIS` |
| encoder.go:288 | `encoder.encodeKanji` | `Encoder.kanjiPairs`, `Encoder.encodeKanji` |
| encoder.go:307 | `encoder.breakUpInto8bit` | `Encoder.padBytes`, `Encoder.breakUpInto8bit` |
| encoder.go:360 | `encoder.charCountBits` | `Encoder.charCountBits` |
| encoder.go:375 | `encodeAlphanumericCharacter` | `Encoder.encodeAlphanumericCharacter` |
| encoder_option.go:8 | `DefaultEncodingOption` | `EncodeOption.defaultEncodingOption` |
| encoder_option.go:36 | `fnEncodingOption.apply` | `EncodeOption.applyOptions` |
| encoder_option.go:40 | `newFnEncodingOption` | `EncodeOption.applyOptions` |
| encoder_option.go:45 | `WithEncodingMode` | `EncodeOption.EncodeOption.apply` |
| encoder_option.go:56 | `WithErrorCorrectionLevel` | `EncodeOption.EncodeOption.apply` |
| encoder_option.go:67 | `WithVersion` | `EncodeOption.EncodeOption.apply` |
| encoder_option.go:80 | `WithMinimumVersion` | `EncodeOption.EncodeOption.apply` |
| kmp_variant.go:6 | `kmp` | `Kmp.kmpLoop`, `Kmp.kmp` |
| kmp_variant.go:41 | `kmpGetNext` | `Kmp.kmpNextLoop`, `Kmp.kmpGetNext` |
| mask.go:33 | `newMask` | `Mask.newMask` |
| mask.go:47 | `getModuloFunc` | `Mask.getModuloFunc` |
| mask.go:72 | `mask.masking` | `Mask.maskStep` |
| mask.go:94 | `modulo0Func` | `Mask.getModuloFunc` |
| mask.go:100 | `modulo1Func` | `Mask.getModuloFunc` |
| mask.go:106 | `modulo2Func` | `Mask.getModuloFunc` |
| mask.go:112 | `modulo3Func` | `Mask.getModuloFunc` |
| mask.go:118 | `modulo4Func` | `Mask.getModuloFunc` |
| mask.go:124 | `modulo5Func` | `Mask.getModuloFunc` |
| mask.go:130 | `modulo6Func` | `Mask.getModuloFunc` |
| mask.go:136 | `modulo7Func` | `Mask.getModuloFunc` |
| mask_evaluation.go:11 | `evaluation` | `Evaluation.evaluation` |
| mask_evaluation.go:28 | `rule1` | `Evaluation.scoreLineStep`, `Evaluation.rule1` |
| mask_evaluation.go:71 | `rule2` | `Evaluation.rule2` |
| mask_evaluation.go:98 | `rule3` | `Evaluation.pattern1`, `Evaluation.rule3` |
| mask_evaluation.go:139 | `rule4` | `Evaluation.rule4` |
| matrix.go:17 | `newMatrix` | `Heap.columnFrom`, `Heap.Heap.newMatrix`, `Matrix.newMatrix`, `MatrixType.QRType` |
| matrix.go:42 | `Matrix.init` | `Matrix.newMatrix` |
| matrix.go:51 | `Matrix.print` | not modelled (prints to stdout; unused) |
| matrix.go:61 | `Matrix.Copy` | `Heap.columnFrom`, `Heap.Heap.copy`, `Matrix.copy` |
| matrix.go:78 | `Matrix.Width` | `Matrix.width` (field) |
| matrix.go:83 | `Matrix.Height` | `Matrix.height` (field) |
| matrix.go:88 | `Matrix.set` | `Heap.Heap.set`, `Matrix.setE` |
| matrix.go:100 | `Matrix.at` | `Matrix.atE` |
| matrix.go:123 | `Matrix.Iterate` | `Matrix.iterate` |
| matrix.go:127 | `Matrix.iter` | `Matrix.Dir.ofByte`, `Matrix.coords`, `Matrix.iterate` |
| matrix.go:147 | `Matrix.Row` | `Heap.Heap.rowVals`, `Heap.Heap.row`, `Matrix.row`, `MatrixType.QRType` |
| matrix.go:160 | `Matrix.Col` | `Heap.Heap.colRef`, `Matrix.col` |
| matrix.go:169 | `Matrix.Bitmap` | `Matrix.bitmap` |
| matrix_type.go:25 | `qrtype.String` | `MatrixType.QRType.string` |
| matrix_type.go:50 | `QRValue.Type` | `MatrixType.qrtype` |
| matrix_type.go:54 | `QRValue.IsSet` | `MatrixType.qrbool` |
| matrix_type.go:102 | `qrvalue.qrtype` | `MatrixType.QRValue.qrtype`, `MatrixType.byteType` |
| matrix_type.go:106 | `qrvalue.qrbool` | `MatrixType.QRValue.qrbool`, `MatrixType.byteBool` |
| matrix_type.go:110 | `qrvalue.String` | `MatrixType.QRValue.string` |
| matrix_type.go:119 | `qrvalue.xor` | `MatrixType.QRValue.xor`, `MatrixType.byteXor` |
| qrcode.go:14 | `New` | `QRCode.new` |
| qrcode.go:21 | `NewWith` | `EncodeOption.applyOptions`, `QRCode.newWith`, `Shared.prepare` |
| qrcode.go:30 | `toBytes` | `QRCode.toBytes` |
| qrcode.go:43 | `validateEncodingMode` | `QRCode.validateEncodingMode` |
| qrcode.go:70 | `build` | `QRCode.build`, `Shared.prepare`, `Shared.complete` |
| qrcode.go:104 | `QRCode.Save` | `Save.deferredClose`, `Save.saveWith`, `Save.save` |
| qrcode.go:118 | `QRCode.Dimension` | `QRCode.QRCode.dimension`, `Save.dimension` |
| qrcode.go:127 | `QRCode.init` | `QRCode.chooseMode`, `QRCode.init`, `Shared.prepare` |
| qrcode.go:176 | `QRCode.calcVersion` | `QRCode.calcVersionNumber` |
| qrcode.go:208 | `QRCode.applyEncoder` | `QRCode.init` (the call of `newEncoder`) |
| qrcode.go:216 | `QRCode.dataEncoding` | `QRCode.splitGroup`, `QRCode.splitBlocks`, `QRCode.madeSlice`, `QRCode.dataEncoding` |
| qrcode.go:264 | `QRCode.errorCorrectionEncoding` | `Chardet.Ext`, `QRCode.madeSlice`, `QRCode.ecLoop`, `QRCode.errorCorrectionEncoding` |
| qrcode.go:280 | `QRCode.arrangeBits` | `QRCode.derefAll`, `QRCode.arrangeRound`, `QRCode.arrangeLoop`, `QRCode.arrange`, `QRCode.arrangeBits` |
| qrcode.go:364 | `QRCode.prefillMatrix` | `Fill.prefill`, `Shared.prepare`, `Shared.complete`, `Shared.step` |
| qrcode.go:406 | `addFinder` | `Fill.ringWalk`, `Fill.finderCore`, `Fill.addFinder`, `Shared.complete`, `Shared.step` |
| qrcode.go:446 | `addSplitter` | `Fill.addSplitter` |
| qrcode.go:477 | `addAlignment` | `Fill.ringWalk`, `Fill.addAlignment` |
| qrcode.go:510 | `addTimingLine` | `Fill.timingLoop`, `Fill.addTimingLine` |
| qrcode.go:523 | `addDarkBlock` | `Fill.addDarkBlock` |
| qrcode.go:528 | `reserveFormatBlock` | `Fill.reserveFormatBlock` |
| qrcode.go:555 | `reserveVersionBlock` | `Fill.reserveVersionBlock` |
| qrcode.go:568 | `QRCode.fillDataBinary` | `Fill.fillLoop`, `Fill.fillDataBinary` |
| qrcode.go:642 | `QRCode.masking` | `Conc.chanCap`, `Conc.matPtr`, `Conc.maskPtr`, `Conc.stepWorker`, `Conc.stepMain`, `Conc.initial`, `QRCode.maskWorker`, `QRCode.selectMask`, `QRCode.masking`, `Shared.complete` |
| qrcode.go:720 | `QRCode.xorMask` | `Mask.xorStep`, `Mask.xorMask` |
| qrcode.go:733 | `QRCode.fillVersionInfo` | `Fill.versionCells`, `Fill.fillVersionInfo` |
| qrcode.go:755 | `QRCode.fillFormatInfo` | `Fill.formatLoop`, `Fill.fillFormatInfo` |
| utilities.go:5 | `samestate` | `MatrixType.samestate` |
| utilities.go:9 | `abs` | `Evaluation.rule4` (inline) |
| utilities.go:17 | `min` | `Evaluation.rule4` (inline) |
| utilities.go:25 | `binaryToQRValueSlice` | `MatrixType.binaryToQRValueSlice` |
| version.go:15 | `init` | `Version.initialCache` |
| version.go:135 | `version.Dimension` | `VersionType.dimension` |
| version.go:140 | `version.NumTotalCodewords` | `VersionType.numTotalCodewords` |
| version.go:149 | `version.NumGroups` | `VersionType.numGroups` |
| version.go:154 | `version.TotalNumBlocks` | `VersionType.totalNumBlocks` |
| version.go:163 | `version.verInfo` | `Version.verInfo` |
| version.go:176 | `version.formatInfo` | `Version.formatInfo` |
| version.go:208 | `binarySearchVersion` | `Version.binarySearchLoop`, `Version.binarySearchVersion` |
| version.go:243 | `defaultBinaryCompare` | `Version.defaultBinaryCompare` |
| version.go:258 | `loadVersion` | `Version.loadVersionLoop`, `Version.loadVersion` |
| version.go:278 | `analyzeVersion` | `Version.capMark`, `Version.analyzeVersionLoop`, `Version.analyzeVersion` |
| version.go:386 | `loadAlignmentPatternLoc` | `Version.loadAlignmentPatternLoc` |
| version.go:417 | `loadAlignmentPatternLocV2` | `Shared.step`, `Version.loadAlignmentPatternLocV2` |
| version.go:437 | `precalculateAlignPatternLocs` | `Version.precalcLoop`, `Version.initialCache` |
| version.go:445 | `calcAlignPatternLocs` | `Version.calcAlignPatternLocs` |
| version.go:471 | `valid` | `Version.validLoc` |
| writer.go:19 | `nonWriter.Close` | `Save.nonWriter` |
| writer.go:23 | `nonWriter.Write` | `Save` (a writer that ignores the matrix) |
| writer/compressed/writer.go:32 | `New` | `Files.compressedFlags` |
| writer/compressed/writer.go:41 | `NewWithWriter` | `Compressed.write` (its options) |
| writer/compressed/writer.go:45 | `compressedWriter.Write` | `Alias.Heap.uses`, `Compressed.rectangle`, `Compressed.image`, `Compressed.write`, `Compressed64.rectangle64`, `Compressed64.image64`, `CompressedArch.rectangleOn`, `CompressedArch.imageOn`, `Fd.compressed`, `Standard.Opts.attribute` |
| writer/compressed/writer.go:93 | `compressedWriter.Close` | `Fd.compressed` |
| writer/file/writer.go:25 | `Writer.Close` | `Fd.text` |
| writer/file/writer.go:28 | `Writer.Write` | `Fd.text`, `FileWriter.charAt`, `FileWriter.output`, `FileWriter.chunks`, `FileWriter.writeAll`, `FileWriter.write` |
| writer/file/writer.go:78 | `New` | `FileWriter.write` (its sink) |
| writer/standard/gradient.go:29 | `NewGradient` | `Alias.step`, `Gradient.newGradient` |
| writer/standard/gradient.go:38 | `LinearGradient.applyGradient` | `CanvasGradient.Canvas.applyGradient`, `Fma.projF`, `Fma.cornerProjF`, `Fma.gradientSpanF`, `Fma.gradientPosF`, `Fma.gradientPixelF`, `Gradient.proj`, `Gradient.cornerProj`, `Gradient.minProj`, `Gradient.maxProj`, `Gradient.gradientSpan`, `Gradient.gradientPos`, `Gradient.gradientPixel`, `Special64.proj64`, `Special64.cornerProj64`, `Special64.minProj64`, `Special64.maxProj64`, `Special64.gradientPos64`, `Special64.angleRad`, `Special64.gradientPixel64` |
| writer/standard/gradient.go:90 | `interpolateColor` | `Fma.interpLoopF`, `Gradient.interpLoop`, `Special64.fallbackColor`, `Special64.interpLoop64` |
| writer/standard/gradient.go:110 | `blendColors` | `Fma.blendChanF`, `Fma.blendColorsF`, `Gradient.blendChan`, `Gradient.blendColors`, `Special64.blendChan64`, `Special64.blendColors64` |
| writer/standard/image_format.go:27 | `jpegEncoder.Encode` | `Standard.ImageEncoder` (which encoder is used; its bytes are not modelled) |
| writer/standard/image_format.go:33 | `pngEncoder.Encode` | `Standard.ImageEncoder` (which encoder is used; its bytes are not modelled) |
| writer/standard/image_option.go:16 | `defaultOutputImageOption` | `Standard.defaultOpts` |
| writer/standard/image_option.go:70 | `outputImageOptions.backgroundColor` | `Painters.backgroundActs`, `Standard.Opts.backgroundColor` |
| writer/standard/image_option.go:82 | `outputImageOptions.logoImage` | `Standard.Opts.logo` |
| writer/standard/image_option.go:90 | `outputImageOptions.qrBlockWidth` | `Standard.Opts.qrBlockWidth` |
| writer/standard/image_option.go:98 | `outputImageOptions.getShape` | `Standard.Opts.getShape` |
| writer/standard/image_option.go:107 | `outputImageOptions.preCalculateAttribute` | `Standard.Opts.attribute` |
| writer/standard/image_option.go:142 | `outputImageOptions.translateToRGBA` | `Painters.moduleActs`, `Standard.Opts.translateToRGBA` |
| writer/standard/image_option.go:163 | `parseFromHex` | `Color.parseFromHex` |
| writer/standard/image_option.go:191 | `parseFromColor` | `Color.parseFromColor` |
| writer/standard/image_option_api.go:20 | `funcOption.apply` | `Standard.ImgOpt`, `Standard.apply` |
| writer/standard/image_option_api.go:24 | `newFuncOption` | `Standard.ImgOpt`, `Standard.apply` |
| writer/standard/image_option_api.go:31 | `WithBgTransparent` | `Standard.ImgOpt`, `Standard.apply` |
| writer/standard/image_option_api.go:38 | `WithBgColor` | `Standard.ImgOpt`, `Standard.apply` |
| writer/standard/image_option_api.go:49 | `WithBgColorRGBHex` | `Standard.ImgOpt`, `Standard.apply` |
| writer/standard/image_option_api.go:60 | `WithFgColor` | `Standard.ImgOpt`, `Standard.apply` |
| writer/standard/image_option_api.go:71 | `WithFgColorRGBHex` | `Standard.ImgOpt`, `Standard.apply` |
| writer/standard/image_option_api.go:78 | `WithFgGradient` | `Alias.step` |
| writer/standard/image_option_api.go:89 | `WithLogoImage` | `Standard.ImgOpt`, `Standard.apply` |
| writer/standard/image_option_api.go:101 | `WithLogoImageFileJPEG` | `Standard.ImgOpt`, `Standard.apply` |
| writer/standard/image_option_api.go:122 | `WithLogoImageFilePNG` | `Standard.ImgOpt`, `Standard.apply` |
| writer/standard/image_option_api.go:142 | `WithQRWidth` | `Standard.ImgOpt`, `Standard.apply` |
| writer/standard/image_option_api.go:149 | `WithCircleShape` | `Standard.ImgOpt`, `Standard.apply` |
| writer/standard/image_option_api.go:156 | `WithCustomShape` | `Standard.ImgOpt`, `Standard.apply` |
| writer/standard/image_option_api.go:165 | `WithBuiltinImageEncoder` | `Standard.ImgOpt`, `Standard.apply` |
| writer/standard/image_option_api.go:183 | `WithCustomImageEncoder` | `Standard.ImgOpt`, `Standard.apply` |
| writer/standard/image_option_api.go:197 | `WithBorderWidth` | `Standard.bordersOf` |
| writer/standard/image_option_api.go:222 | `WithHalftone` | `Standard.bordersOf` |
| writer/standard/image_option_api.go:236 | `WithHalftoneImage` | `Standard.ImgOpt`, `Standard.apply` |
| writer/standard/image_option_api.go:243 | `WithLogoSizeMultiplier` | `Standard.ImgOpt`, `Standard.apply` |
| writer/standard/image_option_api.go:250 | `WithLogoSafeZone` | `Standard.ImgOpt`, `Standard.apply` |
| writer/standard/image_qr_shape.go:34 | `DrawContext.UpperLeft` | `Shapes` (argument of `draw`) |
| writer/standard/image_qr_shape.go:39 | `DrawContext.Edge` | `Shapes` (argument of `draw`) |
| writer/standard/image_qr_shape.go:61 | `DrawContext.Neighbours` | `Shapes` (argument of `draw`) |
| writer/standard/image_qr_shape.go:68 | `DrawContext.Color` | `Shapes` (argument of `draw`) |
| writer/standard/image_qr_shape.go:75 | `rectangle.Draw` | `Canvas.Canvas.paint`, `Shapes.drawRectangle` |
| writer/standard/image_qr_shape.go:82 | `rectangle.DrawFinder` | `Canvas.Canvas.paint`, `Shapes.drawRectangle`, `Shapes64.drawRectangle64` |
| writer/standard/image_qr_shape.go:91 | `circle.Draw` | `Shapes.drawCircle`, `Shapes64.drawCircle64` |
| writer/standard/image_qr_shape.go:105 | `circle.DrawFinder` | `Shapes` (same as `Draw`) |
| writer/standard/imgkit/io.go:14 | `Read` | parameter (`ImgOpt.halftoneFile`: what reading and decoding yields) |
| writer/standard/imgkit/io.go:30 | `Save` | `Imgkit.save` |
| writer/standard/imgkit/process.go:11 | `Binaryzation` | `Imgkit.binaryzation`, `Standard.halftoneColor` |
| writer/standard/imgkit/process.go:34 | `Gray` | `Imgkit.gray`, `Standard.halftoneColor` |
| writer/standard/imgkit/process.go:49 | `Scale` | `Standard.halftoneColor` |
| writer/standard/shapes/blocks.go:9 | `LiquidBlock` | `Shapes.liquidBlock`, `Shapes64.liquidBlock64` |
| writer/standard/shapes/blocks.go:125 | `HStripeBlock` | `Shapes.hStripeBlock`, `Shapes64.hStripeBlock64`, `Special64.stripeScale64` |
| writer/standard/shapes/blocks.go:162 | `VStripeBlock` | `Shapes.vStripeBlock`, `Shapes64.vStripeBlock64`, `Special64.stripeScale64` |
| writer/standard/shapes/blocks.go:199 | `ChainBlock` | `Shapes.chainBlock`, `Shapes64.chainBlock64` |
| writer/standard/shapes/blocks.go:241 | `VChainBlock` | `Shapes.vChainBlock`, `Shapes64.vChainBlock64` |
| writer/standard/shapes/blocks.go:277 | `HChainBlock` | `Shapes.hChainBlock`, `Shapes64.hChainBlock64` |
| writer/standard/shapes/blocks.go:313 | `SquareBlocks` | `Shapes.blockScale`, `Shapes.squareBlocks`, `Shapes64.blockScaleRnd`, `Shapes64.squareBlocks64`, `Special64.blockScale64` |
| writer/standard/shapes/blocks.go:333 | `CircleBlocks` | `Shapes.blockScale`, `Shapes.circleBlocks`, `Shapes64.blockScaleRnd`, `Shapes64.circleBlocks64`, `Special64.blockScale64` |
| writer/standard/shapes/constructor.go:16 | `ComposableShape.Draw` | `Shapes.LibShape` |
| writer/standard/shapes/constructor.go:21 | `ComposableShape.DrawFinder` | `Shapes.LibShape` |
| writer/standard/shapes/constructor.go:27 | `Assemble` | `Shapes.LibShape` |
| writer/standard/shapes/constructor.go:36 | `has` | `Shapes.has` |
| writer/standard/shapes/finders.go:7 | `RoundedFinder` | `Shapes.roundedFinder`, `Shapes64.roundedFinder64` |
| writer/standard/shapes/finders.go:81 | `SquareFinder` | `Shapes.squareFinder`, `Shapes64.squareFinder64` |
| writer/standard/writer.go:32 | `New` | `Files.standardFlags`, `Files.standardName` |
| writer/standard/writer.go:47 | `NewWithWriter` | `Standard.newWithWriter` |
| writer/standard/writer.go:68 | `Writer.Write` | `Fd.standard`, `Fd.standardZero` |
| writer/standard/writer.go:72 | `Writer.Close` | `Fd.standard`, `Fd.standardZero` |
| writer/standard/writer.go:84 | `Writer.Attribute` | `Standard.Opts.attribute` |
| writer/standard/writer.go:88 | `drawTo` | `Fd.standard`, `Fd.standardZero` |
| writer/standard/writer.go:109 | `draw` | `Alias.Heap.uses`, `CanvasGradient.Canvas.applyGradient`, `CanvasImage.Canvas.drawImage`, `CanvasShapes.GradientPainter`, `CanvasShapes.Sheet.opRun`, `Draw64.logoSize64`, `Draw64.drawModule64`, `Draw64.clearedBitmap64`, `Draw64.draw64`, `DrawArch.logoSizeOn`, `DrawArch.drawModuleOn`, `DrawArch.clearedBitmapOn`, `DrawArch.drawOn`, `Fma.Canvas.applyGradientF`, `Machine.drawModuleM`, `Machine.drawM`, `Machine.Machine.grad`, `Painters.Sizes`, `Painters.moduleActs`, `Painters.program`, `Painters.paintOps`, `Painters.finishOps`, `Special64.Canvas.applyGradient64`, `Standard.logoSize`, `Standard.drawModule`, `Standard.clearedBitmap`, `Standard.draw` |
| writer/standard/writer.go:248 | `getNeighbours` | `Standard.dirs`, `Standard.getNeighbours` |
| writer/standard/writer.go:289 | `halftoneColor` | `Standard.halftoneColor` |
| writer/standard/writer.go:308 | `validLogoImage` | `Draw64.validLogoImage64`, `DrawArch.validLogoImageOn`, `Standard.validLogoImage` |
| writer/standard/writer.go:312 | `blockOverlapsLogo` | `Draw64.blockOverlapsLogo64`, `DrawArch.blockOverlapsLogoOn`, `Standard.blockOverlapsLogo` |
| writer/terminal/writer.go:16 | `New` | `Save.nonWriter` |
| writer/terminal/writer.go:23 | `Writer.init` | `Terminal.preDraw` |
| writer/terminal/writer.go:33 | `Writer.preDraw` | `Terminal.preDraw` |
| writer/terminal/writer.go:43 | `Writer.drawBlock` | `Terminal.drawBlock` |
| writer/terminal/writer.go:51 | `Writer.Write` | `Terminal.render` |
| writer/terminal/writer.go:78 | `printTip` | `Standard.Opts.attribute`, `Terminal.tip`, `Terminal.printTip` |
| writer/terminal/writer.go:91 | `hold` | `Terminal.hold` |
| writer/terminal/writer.go:107 | `Writer.Close` | `Save` (close of a writer) |
