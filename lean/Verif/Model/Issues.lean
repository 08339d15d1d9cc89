import Verif.Model.EncodeOption
import Verif.Model.Compressed
/-!
# The programs under .issues/

Two programs for bug reports.  Both make a symbol and save it with the compressed writer, padding 4 and block size 1.  The one of issue 69 also calls another library (`skip2`), which is left out; both of its
functions for this library make the same calls.  The text of each is a literal; here it is left open.
-/
namespace QR.Issues
open QR

/-- Go's `strings.Replace(s, old, new, -1)` for one-byte strings `old` and `new`. -/
def replaceByte (old new : UInt8) (s : Bytes) : Bytes := s.map fun b => if b = old then new else b

/-- Go's `strings.ToUpper` on a string of ASCII characters (others are left alone here, which Go does not do). -/
def toUpper (s : Bytes) : Bytes := s.map fun b => if 97 ≤ b ∧ b ≤ 122 then b - 32 else b

/-- .issues/69/issue.go:34-41 the text given to the encoder. -/
def content69 (content : Bytes) : Bytes :=
  let content := replaceByte 0x7B 0x24 content  -- "{" "$"
  let content := replaceByte 0x7D 0x25 content  -- "}" "%"
  let content := replaceByte 0x0A 0x20 content  -- "\n" " "
  let content := replaceByte 0x22 0x2A content  -- "\"" "*"
  let content := replaceByte 0x2C 0x2F content  -- "," "/"
  let content := replaceByte 0x5B 0x2F content  -- "[" "/"
  let content := replaceByte 0x5D 0x2F content  -- "]" "/"
  toUpper content

/-- .issues/69/issue.go:78-81, 115-118 -/
def options69 : List EncodeOption := [.withEncodingMode encAlphanumeric, .withErrorCorrectionLevel ecHighest]

/-- .issues/106/issue.go:33-35 -/
def options106 : List EncodeOption := [.withEncodingMode encKanji]

/-- .issues/69/issue.go:86-89, 123-126; .issues/106/issue.go:42-45 -/
def writerOption : Compressed.Opt := ⟨4, 1⟩

end QR.Issues
