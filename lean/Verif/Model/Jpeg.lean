import Verif.Model.Color
/-!
# What JPEG keeps (writer/standard/image_format.go:27)

`jpegEncoder.Encode` hands the picture to `image/jpeg`. For an `*image.RGBA`, which is what `gg` makes, that package looks at red, green and blue and ignores alpha (`rgbaToYCbCr`), converts
(`color.RGBToYCbCr`) and stores rounded coefficients. Only the conversion is modelled; what the rounding does is left to the theorems (any picture close enough).
-/
namespace QR.Standard
open QR

/-- The channels that `image/jpeg` looks at. -/
def RGBA.jpeg (c : RGBA) : UInt8 × UInt8 × UInt8 := (c.r, c.g, c.b)

/-- `color.RGBToYCbCr`, the first result: brightness. -/
def brightness (c : UInt8 × UInt8 × UInt8) : Nat := (19595 * c.1.toNat + 38470 * c.2.1.toNat + 7471 * c.2.2.toNat + 32768) / 65536

end QR.Standard
