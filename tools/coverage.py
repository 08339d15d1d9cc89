#!/usr/bin/env python3
"""Writes COVERAGE.md: for every Go function outside tests and examples, the model definitions that cite its lines."""
import re,glob,os
R='/repo/'
funcs=[]
for f in sorted(glob.glob(R+'**/*.go',recursive=True)+glob.glob(R+'.issues/**/*.go',recursive=True)):
    if f.endswith('_test.go'): continue
    L=open(f).read().split('\n')
    i=0
    while i<len(L):
        if L[i].startswith('func '):
            m=re.match(r'func (\([^)]*\) )?(\w+)',L[i])
            j=i
            if not L[i].rstrip().endswith('}') :
                while L[j]!='}': j+=1
            recv=m.group(1)
            nm=m.group(2) if m else '?'
            if recv:
                nm=recv.strip(' ()').split()[-1].lstrip('*')+'.'+nm
            funcs.append((os.path.relpath(f,R),i+1,j+1,nm))
            i=j
        i+=1
cites=[]
for f in sorted(glob.glob('/verif/lean/Verif/Model/*.lean')):
    t=open(f).read()
    ns=[]
    for m in re.finditer(r'/--((?:(?!-/).)*)-/\s*(?:@\[[^\]]*\]\s*)?(?:noncomputable )?(def|abbrev|structure|inductive)\s+(\S+)|/--(.*?)-/|^namespace (\S+)|^end (\S+)|^(?:noncomputable )?(?:def|abbrev|structure|inductive)\s+(\S+)',t,re.S|re.M):
        doc=m.group(1) or m.group(4) or ''
        name=m.group(3) or ''
        cites.append((os.path.basename(f)[:-5],name,doc))
def parse(doc):
    out=[]
    for m in re.finditer(r'(\.?[\w/]+\.go):((?:\d+(?:-\d+)?(?:, ?|/ ?| / )?)+)',doc):
        for r in re.findall(r'(\d+)(?:-(\d+))?',m.group(2)):
            out.append((m.group(1),int(r[0]),int(r[1] or r[0])))
    return out
PC=[(mod,n,parse(d)) for mod,n,d in cites]
API='writer/standard/image_option_api.go'
OVER={
 ('.issues/69/issue.go','encodeWithSkip2'):'not modelled (another library)', ('.issues/69/issue.go','CustomPngEncoder.Encode'):'not modelled (never called)',
 ('matrix.go','Matrix.Width'):'`Matrix.width` (field)', ('matrix.go','Matrix.Height'):'`Matrix.height` (field)',
 ('matrix_type.go','QRValue.Type'):'`MatrixType.qrtype`', ('matrix_type.go','QRValue.IsSet'):'`MatrixType.qrbool`',
 ('qrcode.go','QRCode.applyEncoder'):'`QRCode.init` (the call of `newEncoder`)',
 ('utilities.go','abs'):'`Evaluation.rule4` (inline)', ('utilities.go','min'):'`Evaluation.rule4` (inline)',
 ('encoder_option.go','fnEncodingOption.apply'):'`EncodeOption.applyOptions`', ('encoder_option.go','newFnEncodingOption'):'`EncodeOption.applyOptions`',
 ('writer.go','nonWriter.Write'):'`Save` (a writer that ignores the matrix)',
 ('writer/compressed/writer.go','NewWithWriter'):'`Compressed.write` (its options)', ('writer/compressed/writer.go','compressedWriter.Close'):'`Save` (close of a writer)',
 ('writer/file/writer.go','Writer.Close'):'`Save` (close of a writer)', ('writer/file/writer.go','New'):'`FileWriter.write` (its sink)',
 ('writer/standard/image_option.go','outputImageOptions.logoImage'):'`Standard.Opts.logo`',
 ('writer/standard/image_qr_shape.go','DrawContext.UpperLeft'):'`Shapes` (argument of `draw`)', ('writer/standard/image_qr_shape.go','DrawContext.Edge'):'`Shapes` (argument of `draw`)',
 ('writer/standard/image_qr_shape.go','DrawContext.Neighbours'):'`Shapes` (argument of `draw`)', ('writer/standard/image_qr_shape.go','DrawContext.Color'):'`Shapes` (argument of `draw`)',
 ('writer/standard/image_qr_shape.go','circle.DrawFinder'):'`Shapes` (same as `Draw`)',
 ('writer/standard/imgkit/io.go','Read'):'parameter (`ImgOpt.halftoneFile`: what reading and decoding yields)',
 ('writer/standard/image_format.go','jpegEncoder.Encode'):'`Standard.ImageEncoder` (which encoder is used; its bytes are not modelled)',
 ('writer/standard/image_format.go','pngEncoder.Encode'):'`Standard.ImageEncoder` (which encoder is used; its bytes are not modelled)',
 ('cmd/qrcode/app.go','newApp'):'`Cli.parse`, `Cli.run` (the action; names, versions and authors are not modelled)', ('cmd/qrcode/app.go','prepareFlags'):'`Cli.Flags`, `Cli.defaultFlags` (the flag parser is not modelled)', ('cmd/qrcode/main.go','main'):'not modelled (calls `app.Run`)',
 ('cmd/wasm/main.go','main'):'not modelled (registers `genqrcode`)', ('cmd/wasm/types.go','genOption.validate'):'`Wasm.genqrcode` (it accepts everything)',
 ('cmd/wasm/types.go','genResult.setError'):'`Wasm.GenResult`', ('cmd/wasm/types.go','genResult.setImage'):'`Wasm.GenResult`', ('cmd/wasm/types.go','genResult.JSValue'):'`Wasm.GenResult`',
 ('cmd/wasm/types.go','nopCloser.Close'):'`Wasm.genqrcode` (no effect)',
 ('writer/standard/writer.go','Writer.Close'):'`Save` (close of a writer)', ('writer/terminal/writer.go','Writer.Close'):'`Save` (close of a writer)',
 ('writer/standard/writer.go','Writer.Write'):'`Standard.draw`', ('writer/standard/writer.go','drawTo'):'`Standard.draw`',
 ('writer/terminal/writer.go','New'):'`Terminal.render`', ('writer/terminal/writer.go','Writer.init'):'`Terminal.render`',
 ('debug.go','debugLogf'):'not modelled (log output; off by default)', ('matrix.go','Matrix.print'):'not modelled (prints to stdout; unused)',
}
rows=[];mod=non=0
for f,a,b,nm in funcs:
    if f.startswith('example/'): continue  # Model/Examples.lean
    hits=[]
    for m,n,cs in PC:
        for g,x,y in cs:
            if n and (f==g or f.endswith('/'+g)) and m!='Res' and not (y<a-1 or x>b) and f'`{m}.{n}`' not in hits: hits.append(f'`{m}.{n}`')
    if hits: d=', '.join(hits)
    elif (f,nm) in OVER: d=OVER[(f,nm)]
    elif f==API: d='`Standard.ImgOpt`, `Standard.apply`'
    else: raise SystemExit((f,a,b,nm))
    if d.startswith('not modelled'): non+=1
    else: mod+=1
    rows.append(f'| {f}:{a} | `{nm}` | {d} |')
open('/verif/COVERAGE.md','w').write(f"""# Which Go function is modelled where

Generated by tools/coverage.py from the citations in lean/Verif/Model (module.definition).  {mod} functions are modelled, {non} are not;
the programs under example/ (Model/Examples.lean, CanvasCustom.lean) and the tests are not part of the library and are left out.

| function | name | model |
|---|---|---|
"""+'\n'.join(rows)+'\n')
print(mod,non)
