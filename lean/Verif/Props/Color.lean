import Verif.Model.Standard
import Verif.Spec.Hex
/-!
# C45, C46: colours
-/
namespace QR.Standard
open QR

/-! ## C45 -/

/-- The 16-bit channels of a colour, as its method `RGBA()` gives them (for `color.RGBA`: image/color `func (c RGBA) RGBA()`). -/
def GoColor.channels : GoColor → UInt32 × UInt32 × UInt32 × UInt32
  | .rgba c => (c.r.toUInt32 * 0x101, c.g.toUInt32 * 0x101, c.b.toUInt32 * 0x101, c.a.toUInt32 * 0x101)
  | .other r g b a => (r, g, b, a)

/-- The colour reduced to 8 bits per channel: the high byte of every 16-bit channel. -/
def GoColor.high (c : GoColor) : RGBA :=
  let (r, g, b, a) := c.channels
  ⟨(r >>> 8).toUInt8, (g >>> 8).toUInt8, (b >>> 8).toUInt8, (a >>> 8).toUInt8⟩

/-- The two bytes of a 16-bit channel are the same. -/
def Doubled (c : UInt32) : Prop := c = c.toUInt8.toUInt32 * 0x101

/-- The foreground colour the writer uses. -/
def fgOf (c : GoColor) : Option RGBA := (newWithWriter false [.fgColor (some c)]).map (·.qrColor)

/-- The background colour the writer uses. -/
def bgOf (c : GoColor) : Option RGBA := (newWithWriter false [.bgColor (some c)]).map (·.bgColor)

theorem high_doubled (b : UInt8) : ((b.toUInt32 * 0x101) >>> 8).toUInt8 = b := by
  have h : ∀ b : Fin 256, (((UInt8.ofFin b).toUInt32 * 0x101) >>> 8).toUInt8 = UInt8.ofFin b := by decide +kernel
  exact h ⟨b.toNat, b.toNat_lt⟩

theorem low_doubled (b : UInt8) : (b.toUInt32 * 0x101).toUInt8 = b := by
  have h : ∀ b : Fin 256, ((UInt8.ofFin b).toUInt32 * 0x101).toUInt8 = UInt8.ofFin b := by decide +kernel
  exact h ⟨b.toNat, b.toNat_lt⟩

theorem high_of_doubled {c : UInt32} (h : Doubled c) : (c >>> 8).toUInt8 = c.toUInt8 := by
  conv => lhs; rw [h]
  exact high_doubled _

theorem doubled_of {c : UInt32} (hc : c.toNat < 65536) (h : (c >>> 8).toUInt8 = c.toUInt8) : Doubled c := by
  unfold Doubled
  apply UInt32.toNat_inj.1
  have h' := congrArg UInt8.toNat h
  simp only [UInt32.toNat_toUInt8, UInt32.toNat_shiftRight] at h'
  simp only [UInt32.toNat_mul, UInt8.toNat_toUInt32, UInt32.toNat_toUInt8]
  have e8 : (8 : UInt32).toNat % 32 = 8 := by decide
  have e257 : UInt32.toNat 257 = 257 := by decide
  rw [e8, Nat.shiftRight_eq_div_pow, show (2 : Nat) ^ 8 = 256 from rfl] at h'
  rw [e257, show (2 : Nat) ^ 8 = 256 from rfl, show (2 : Nat) ^ 32 = 4294967296 from rfl]
  generalize c.toNat = n at *
  have e1 : n / 256 % 256 = n / 256 := Nat.mod_eq_of_lt (by omega)
  rw [e1] at h'
  have e2 : n % 256 * 257 < 4294967296 := by omega
  rw [Nat.mod_eq_of_lt e2]
  omega

/-- **C45, what holds.**  A `color.RGBA` is used as it is; a colour of another type (with channels of at most 16 bits, as `RGBA()`
promises) is used faithfully exactly if the two bytes of every channel are the same. -/
theorem C45_partial : (∀ c : RGBA, fgOf (.rgba c) = some (GoColor.rgba c).high ∧ bgOf (.rgba c) = some (GoColor.rgba c).high) ∧
    ∀ r g b a : UInt32, r.toNat < 65536 → g.toNat < 65536 → b.toNat < 65536 → a.toNat < 65536 →
      (fgOf (.other r g b a) = some (GoColor.other r g b a).high ↔ Doubled r ∧ Doubled g ∧ Doubled b ∧ Doubled a) ∧
      (bgOf (.other r g b a) = some (GoColor.other r g b a).high ↔ Doubled r ∧ Doubled g ∧ Doubled b ∧ Doubled a) := by
  refine ⟨?_, ?_⟩
  · intro c
    have : (GoColor.rgba c).high = c := by
      simp only [GoColor.high, GoColor.channels, high_doubled]
    rw [this]
    exact ⟨rfl, rfl⟩
  · intro r g b a hr hg hb ha
    have key : (some (parseFromColor (.other r g b a)) = some (GoColor.other r g b a).high ↔
        Doubled r ∧ Doubled g ∧ Doubled b ∧ Doubled a) := by
      rw [Option.some.injEq]
      simp only [parseFromColor, GoColor.high, GoColor.channels, RGBA.mk.injEq]
      constructor
      · rintro ⟨h1, h2, h3, h4⟩
        exact ⟨doubled_of hr h1.symm, doubled_of hg h2.symm, doubled_of hb h3.symm, doubled_of ha h4.symm⟩
      · rintro ⟨h1, h2, h3, h4⟩
        exact ⟨(high_of_doubled h1).symm, (high_of_doubled h2).symm, (high_of_doubled h3).symm, (high_of_doubled h4).symm⟩
    exact ⟨key, key⟩

/-- `image/color.NRGBA`'s method `RGBA()` (a colour that is not multiplied with its alpha). -/
def nrgba (r g b a : UInt8) : GoColor :=
  let f := fun (c : UInt8) => c.toUInt32 * 0x101 * (a.toUInt32) / 0xff
  .other (f r) (f g) (f b) (a.toUInt32 * 0x101)

/-- **C45 is false**: `color.NRGBA{200, 200, 200, 128}` has the 16-bit channels 0x64c8 (and 0x8080), the writer uses 0xc8 instead
of 0x64. -/
theorem C45_counterexample : (nrgba 200 200 200 128).high = ⟨0x64, 0x64, 0x64, 0x80⟩ ∧
    fgOf (nrgba 200 200 200 128) = some ⟨0xc8, 0xc8, 0xc8, 0x80⟩ ∧
    ¬ ∀ c : GoColor, fgOf c = some c.high := by
  refine ⟨by decide +kernel, by decide +kernel, fun h => ?_⟩
  have := h (nrgba 200 200 200 128)
  revert this
  decide +kernel

/-- Greys of 8 bits are used faithfully (`color.Gray`: every channel is the value doubled). -/
example : fgOf (.other 0x4242 0x4242 0x4242 0xffff) = some ⟨0x42, 0x42, 0x42, 0xff⟩ := by decide +kernel

/-! ## C46 -/

theorem hexDigit_eq (r : Nat) : hexDigit r = Spec.hexVal r := by
  by_cases h : r < 128
  · have : ∀ r : Fin 128, hexDigit r.val = Spec.hexVal r.val := by decide +kernel
    exact this ⟨r, h⟩
  · unfold hexDigit
    rw [if_neg (by omega), if_neg (by omega), if_neg (by omega)]
    unfold Spec.hexVal
    split <;> first | omega | rfl

theorem hexDigit_lt {r d : Nat} (h : hexDigit r = some d) : d < 16 := by
  unfold hexDigit at h
  split at h
  · simp only [Option.some.injEq] at h; omega
  · split at h
    · simp only [Option.some.injEq] at h; omega
    · split at h
      · simp only [Option.some.injEq] at h; omega
      · cases h

theorem hexDigit_ascii {r d : Nat} (h : hexDigit r = some d) : r < 128 := by
  unfold hexDigit at h
  split at h
  · omega
  · split at h
    · omega
    · split at h
      · omega
      · cases h

theorem runes_ascii {b : UInt8} (h : b.toNat < 128) (rest : Bytes) : runes (b :: rest) = b.toNat :: runes rest := by
  rw [runes.eq_def]
  simp only
  rw [if_pos h]

/-- A byte that is not ASCII starts no hexadecimal digit. -/
theorem runes_high {b : UInt8} (h : ¬ b.toNat < 128) (rest : Bytes) : ∃ r l, runes (b :: rest) = r :: l ∧ 128 ≤ r := by
  have e : (128 : Nat) ≤ runeError := by unfold runeError; omega
  rw [runes.eq_def]
  simp only
  rw [if_neg h]
  split
  · exact ⟨_, _, rfl, e⟩
  · split
    · split
      · split
        · exact ⟨_, _, rfl, by omega⟩
        · exact ⟨_, _, rfl, e⟩
      · exact ⟨_, _, rfl, e⟩
    · split
      · split
        · split
          · rename_i hc
            refine ⟨_, _, rfl, ?_⟩
            simp only [Bool.and_eq_true, inRange, decide_eq_true_eq] at hc
            unfold second3 at hc
            split at hc
            · simp only at hc; omega
            · split at hc
              · simp only at hc; omega
              · simp only at hc; omega
          · exact ⟨_, _, rfl, e⟩
        · exact ⟨_, _, rfl, e⟩
        · exact ⟨_, _, rfl, e⟩
      · split
        · split
          · split
            · rename_i hc
              refine ⟨_, _, rfl, ?_⟩
              simp only [Bool.and_eq_true, inRange, decide_eq_true_eq] at hc
              unfold second4 at hc
              split at hc
              · simp only at hc; omega
              · split at hc
                · simp only at hc; omega
                · simp only at hc; omega
            · exact ⟨_, _, rfl, e⟩
          · exact ⟨_, _, rfl, e⟩
          · exact ⟨_, _, rfl, e⟩
          · exact ⟨_, _, rfl, e⟩
        · exact ⟨_, _, rfl, e⟩

/-- No character of the string is a space. -/
def NoSpace (s : Bytes) : Prop := ∀ r ∈ runes s, r ∉ Spec.whiteSpace

theorem isSpace_iff (r : Nat) : isSpace r = true ↔ r ∈ Spec.whiteSpace := by
  simp only [isSpace, Spec.whiteSpace, Bool.or_eq_true, decide_eq_true_eq, beq_iff_eq, List.mem_cons, List.not_mem_nil, or_false]
  omega

theorem isSpace_false {r : Nat} (h : r ∉ Spec.whiteSpace) : isSpace r = false :=
  Bool.eq_false_iff.2 fun e => h ((isSpace_iff r).1 e)

theorem NoSpace.tail {b : UInt8} {rest : Bytes} (h : NoSpace (b :: rest)) (hb : b.toNat < 128) : NoSpace rest := by
  intro r hr
  apply h
  rw [runes_ascii hb]
  exact List.mem_cons_of_mem _ hr

theorem skip_noSpace {s : Bytes} (h : NoSpace s) : skipSpace (runes s) = some (runes s) := by
  unfold NoSpace at h
  generalize runes s = l at *
  cases l with
  | nil => rfl
  | cons r l =>
    have hr := isSpace_false (h r (by simp))
    unfold skipSpace
    have : r ≠ 0x0a := by rintro rfl; revert hr; decide
    rw [if_neg this, hr, if_neg (by simp)]

theorem digit_head {b : UInt8} {rest : Bytes} {r : Nat} {l : List Nat} (h : runes (b :: rest) = r :: l) : hexDigit r = hexDigit b.toNat := by
  by_cases hb : b.toNat < 128
  · rw [runes_ascii hb] at h
    simp only [List.cons.injEq] at h
    rw [h.1]
  · obtain ⟨r', l', e, hr⟩ := runes_high hb rest
    rw [e] at h
    simp only [List.cons.injEq] at h
    have a : hexDigit r = none := by
      cases ha : hexDigit r with
      | none => rfl
      | some d => have := hexDigit_ascii ha; omega
    have b' : hexDigit b.toNat = none := by
      cases ha : hexDigit b.toNat with
      | none => rfl
      | some d => have := hexDigit_ascii ha; omega
    rw [a, b']

theorem runes_ne (b : UInt8) (rest : Bytes) : ∃ r l, runes (b :: rest) = r :: l := by
  by_cases hb : b.toNat < 128
  · exact ⟨_, _, runes_ascii hb rest⟩
  · obtain ⟨r, l, e, _⟩ := runes_high hb rest; exact ⟨r, l, e⟩

/-- Reading a number whose first character is no digit fails. -/
theorem scanHex_bad {w : Nat} {b : UInt8} {rest : Bytes} (hs : NoSpace (b :: rest)) (h : hexDigit b.toNat = none) :
    scanHex w (runes (b :: rest)) = none := by
  unfold scanHex
  rw [skip_noSpace hs]
  obtain ⟨r, l, e⟩ := runes_ne b rest
  have := digit_head e
  rw [e]
  simp only [Option.bind_eq_bind, Option.bind_some, this, h]

theorem scanHex_good {w : Nat} {b : UInt8} {rest : Bytes} {d : Nat} (hs : NoSpace (b :: rest)) (h : hexDigit b.toNat = some d) :
    scanHex w (runes (b :: rest)) = some (UInt8.ofNat (scanDigits (w - 1) d (runes rest)).1, (scanDigits (w - 1) d (runes rest)).2) := by
  unfold scanHex
  rw [skip_noSpace hs, runes_ascii (hexDigit_ascii h)]
  simp only [Option.bind_eq_bind, Option.bind_some, h]

theorem scanDigits_good {b : UInt8} {rest : Bytes} {d e : Nat} (h : hexDigit b.toNat = some e) :
    scanDigits 1 d (runes (b :: rest)) = (d * 16 + e, runes rest) := by
  rw [runes_ascii (hexDigit_ascii h)]
  unfold scanDigits
  rw [h]
  rfl

theorem scanDigits_bad {b : UInt8} {rest : Bytes} {d : Nat} (h : hexDigit b.toNat = none) :
    scanDigits 1 d (runes (b :: rest)) = (d, runes (b :: rest)) := by
  obtain ⟨r, l, e⟩ := runes_ne b rest
  have := digit_head e
  rw [e]
  unfold scanDigits
  rw [this, h]

/-- The bytes of a string as numbers. -/
def codes (s : Bytes) : List Nat := s.map UInt8.toNat

/-- The third channel of a string of seven bytes: two digits, or one digit and something else. -/
def lastChan (e f : Nat) : Option Nat :=
  match Spec.hexVal e, Spec.hexVal f with
  | some e, some f => some (16 * e + f)
  | some e, none => some e
  | none, _ => none

theorem parse7 {a b c d e f : UInt8} (hs : NoSpace [a, b, c, d, e, f]) :
    (sscanf3 2 (runes (0x23 :: [a, b, c, d, e, f]))) = (do
      let a ← Spec.hexVal a.toNat; let b ← Spec.hexVal b.toNat; let c ← Spec.hexVal c.toNat; let d ← Spec.hexVal d.toNat
      let z ← lastChan e.toNat f.toNat
      some (UInt8.ofNat (a * 16 + b), UInt8.ofNat (c * 16 + d), UInt8.ofNat z)) := by
  have e0 : runes (0x23 :: [a, b, c, d, e, f]) = 0x23 :: runes [a, b, c, d, e, f] := runes_ascii (by decide) _
  rw [e0]
  unfold sscanf3
  simp only
  unfold lastChan
  simp only [← hexDigit_eq]
  cases ha : hexDigit a.toNat with
  | none => rw [scanHex_bad hs ha]; rfl
  | some va =>
  rw [scanHex_good hs ha]
  have hs1 := hs.tail (hexDigit_ascii ha)
  cases hb : hexDigit b.toNat with
  | none =>
    rw [scanDigits_bad hb]
    simp only [Option.bind_eq_bind, Option.bind_some]
    rw [scanHex_bad hs1 hb]; rfl
  | some vb =>
  rw [scanDigits_good hb]
  have hs2 := hs1.tail (hexDigit_ascii hb)
  simp only [Option.bind_eq_bind, Option.bind_some]
  cases hc : hexDigit c.toNat with
  | none => rw [scanHex_bad hs2 hc]; rfl
  | some vc =>
  rw [scanHex_good hs2 hc]
  have hs3 := hs2.tail (hexDigit_ascii hc)
  cases hd : hexDigit d.toNat with
  | none =>
    rw [scanDigits_bad hd]
    simp only [Option.bind_some]
    rw [scanHex_bad hs3 hd]; rfl
  | some vd =>
  rw [scanDigits_good hd]
  have hs4 := hs3.tail (hexDigit_ascii hd)
  simp only [Option.bind_some]
  cases he : hexDigit e.toNat with
  | none => rw [scanHex_bad hs4 he]; rfl
  | some ve =>
  rw [scanHex_good hs4 he]
  cases hf : hexDigit f.toNat with
  | none => rw [scanDigits_bad hf]; rfl
  | some vf =>
    rw [scanDigits_good hf]
    simp only [Option.bind_some, Nat.mul_comm]

theorem parse4 {a b c : UInt8} (hs : NoSpace [a, b, c]) :
    (sscanf3 1 (runes (0x23 :: [a, b, c]))) = (do
      let a ← Spec.hexVal a.toNat; let b ← Spec.hexVal b.toNat; let c ← Spec.hexVal c.toNat
      some (UInt8.ofNat a, UInt8.ofNat b, UInt8.ofNat c)) := by
  have e0 : runes (0x23 :: [a, b, c]) = 0x23 :: runes [a, b, c] := runes_ascii (by decide) _
  rw [e0]
  unfold sscanf3
  simp only
  simp only [← hexDigit_eq]
  have d0 : ∀ d l, scanDigits (1 - 1) d l = (d, l) := fun d l => by cases l <;> rfl
  cases ha : hexDigit a.toNat with
  | none => rw [scanHex_bad hs ha]; rfl
  | some va =>
  rw [scanHex_good hs ha, d0]
  have hs1 := hs.tail (hexDigit_ascii ha)
  simp only [Option.bind_eq_bind, Option.bind_some]
  cases hb : hexDigit b.toNat with
  | none => rw [scanHex_bad hs1 hb]; rfl
  | some vb =>
  rw [scanHex_good hs1 hb, d0]
  have hs2 := hs1.tail (hexDigit_ascii hb)
  simp only [Option.bind_some]
  cases hc : hexDigit c.toNat with
  | none => rw [scanHex_bad hs2 hc]; rfl
  | some vc => rw [scanHex_good hs2 hc, d0]; rfl

theorem sscanf_hash {w : Nat} {b : UInt8} {rest : Bytes} (h : b.toNat ≠ 35) : sscanf3 w (runes (b :: rest)) = none := by
  obtain ⟨r, l, e⟩ := runes_ne b rest
  rw [e]
  have : r ≠ 0x23 := by
    by_cases hb : b.toNat < 128
    · rw [runes_ascii hb] at e
      simp only [List.cons.injEq] at e
      omega
    · obtain ⟨r', l', e', hr⟩ := runes_high hb rest
      rw [e'] at e
      simp only [List.cons.injEq] at e
      omega
  unfold sscanf3
  split
  · rename_i heq; simp only [List.cons.injEq] at heq; exact absurd heq.1 this
  · rfl

theorem mul17 {v : Nat} (h : v < 16) : UInt8.ofNat v * 17 = UInt8.ofNat (16 * v + v) := by
  have : ∀ v : Fin 16, UInt8.ofNat v.val * 17 = UInt8.ofNat (16 * v.val + v.val) := by decide +kernel
  exact this ⟨v, h⟩

theorem seven {s : Bytes} (h : s.length = 7) : ∃ x a b c d e f, s = [x, a, b, c, d, e, f] := by
  match s, h with
  | [x, a, b, c, d, e, f], _ => exact ⟨x, a, b, c, d, e, f, rfl⟩

theorem four {s : Bytes} (h : s.length = 4) : ∃ x a b c, s = [x, a, b, c] := by
  match s, h with
  | [x, a, b, c], _ => exact ⟨x, a, b, c, rfl⟩

theorem hash_byte {x : UInt8} (h : x.toNat = 35) : x = 0x23 := UInt8.toNat_inj.1 h

/-- The hexadecimal digits of a well-formed colour are no spaces. -/
theorem noSpace_of_hex {s : Bytes} (h : ∀ b ∈ s, ∃ d, hexDigit b.toNat = some d) : NoSpace s := by
  induction s with
  | nil => intro r hr; simp [runes] at hr
  | cons b s ih =>
    obtain ⟨d, hd⟩ := h b (by simp)
    intro r hr
    rw [runes_ascii (hexDigit_ascii hd)] at hr
    rcases List.mem_cons.1 hr with hr | hr
    · subst hr
      have key : ∀ r : Fin 128, (hexDigit r.val).isSome = true → r.val ∉ Spec.whiteSpace := by decide +kernel
      exact key ⟨b.toNat, hexDigit_ascii hd⟩ (by simp only [hd]; rfl)
    · exact ih (fun b hb => h b (by simp [hb])) r hr

/-- **C46.**  Every string `#rrggbb` or `#rgb` of hexadecimal digits (of either case) gives the opaque colour it denotes, to the
foreground as well as to the background. -/
theorem C46_hex (s : Bytes) {r g b : Nat} (h : Spec.hexColor (codes s) = some (r, g, b)) :
    r < 256 ∧ g < 256 ∧ b < 256 ∧
    newWithWriter false [.fgHex s] = some { defaultOpts with qrColor := ⟨UInt8.ofNat r, UInt8.ofNat g, UInt8.ofNat b, 255⟩ } ∧
    newWithWriter false [.bgHex s] = some { defaultOpts with bgColor := ⟨UInt8.ofNat r, UInt8.ofNat g, UInt8.ofNat b, 255⟩ } := by
  have hp : r < 256 ∧ g < 256 ∧ b < 256 ∧ s ≠ [] ∧ parseFromHex s = some ⟨UInt8.ofNat r, UInt8.ofNat g, UInt8.ofNat b, 255⟩ := by
    unfold Spec.hexColor at h
    split at h
    · rename_i l a1 b1 c1 d1 e1 f1 heq
      have hl : s.length = 7 := by
        have := congrArg List.length heq
        simpa [codes] using this
      obtain ⟨x, a, b', c, d, e, f, rfl⟩ := seven hl
      simp only [codes, List.map_cons, List.map_nil, List.cons.injEq, and_true] at heq
      obtain ⟨hx, rfl, rfl, rfl, rfl, rfl, rfl⟩ := heq
      rw [hash_byte hx]
      cases ha : Spec.hexVal a.toNat with
      | none => rw [ha] at h; simp at h
      | some va =>
      cases hb : Spec.hexVal b'.toNat with
      | none => rw [ha, hb] at h; simp at h
      | some vb =>
      cases hc : Spec.hexVal c.toNat with
      | none => rw [ha, hb, hc] at h; simp at h
      | some vc =>
      cases hd : Spec.hexVal d.toNat with
      | none => rw [ha, hb, hc, hd] at h; simp at h
      | some vd =>
      cases he : Spec.hexVal e.toNat with
      | none => rw [ha, hb, hc, hd, he] at h; simp at h
      | some ve =>
      cases hf : Spec.hexVal f.toNat with
      | none => rw [ha, hb, hc, hd, he, hf] at h; simp at h
      | some vf =>
      rw [ha, hb, hc, hd, he, hf] at h
      simp only [Option.bind_eq_bind, Option.bind_some, Option.some.injEq, Prod.mk.injEq] at h
      obtain ⟨rfl, rfl, rfl⟩ := h
      have lim : ∀ {z v}, Spec.hexVal z = some v → v < 16 := fun h => hexDigit_lt (by rw [hexDigit_eq]; exact h)
      have la := lim ha; have lb := lim hb; have lc := lim hc; have ld := lim hd; have le := lim he; have lf := lim hf
      have hns : NoSpace [a, b', c, d, e, f] := noSpace_of_hex fun z hz => by
        simp only [List.mem_cons, List.not_mem_nil, or_false] at hz
        simp only [hexDigit_eq]
        rcases hz with rfl | rfl | rfl | rfl | rfl | rfl
        · exact ⟨_, ha⟩
        · exact ⟨_, hb⟩
        · exact ⟨_, hc⟩
        · exact ⟨_, hd⟩
        · exact ⟨_, he⟩
        · exact ⟨_, hf⟩
      refine ⟨by omega, by omega, by omega, by simp, ?_⟩
      unfold parseFromHex
      rw [if_pos (by rfl), parse7 hns, ha, hb, hc, hd]
      unfold lastChan
      rw [he, hf]
      simp only [Option.bind_eq_bind, Option.bind_some, Option.map_some, Nat.mul_comm]
    · rename_i l a1 b1 c1 heq
      have hl : s.length = 4 := by
        have := congrArg List.length heq
        simpa [codes] using this
      obtain ⟨x, a, b', c, rfl⟩ := four hl
      simp only [codes, List.map_cons, List.map_nil, List.cons.injEq, and_true] at heq
      obtain ⟨hx, rfl, rfl, rfl⟩ := heq
      rw [hash_byte hx]
      cases ha : Spec.hexVal a.toNat with
      | none => rw [ha] at h; simp at h
      | some va =>
      cases hb : Spec.hexVal b'.toNat with
      | none => rw [ha, hb] at h; simp at h
      | some vb =>
      cases hc : Spec.hexVal c.toNat with
      | none => rw [ha, hb, hc] at h; simp at h
      | some vc =>
      rw [ha, hb, hc] at h
      simp only [Option.bind_eq_bind, Option.bind_some, Option.some.injEq, Prod.mk.injEq] at h
      obtain ⟨rfl, rfl, rfl⟩ := h
      have lim : ∀ {z v}, Spec.hexVal z = some v → v < 16 := fun h => hexDigit_lt (by rw [hexDigit_eq]; exact h)
      have la := lim ha; have lb := lim hb; have lc := lim hc
      have hns : NoSpace [a, b', c] := noSpace_of_hex fun z hz => by
        simp only [List.mem_cons, List.not_mem_nil, or_false] at hz
        simp only [hexDigit_eq]
        rcases hz with rfl | rfl | rfl
        · exact ⟨_, ha⟩
        · exact ⟨_, hb⟩
        · exact ⟨_, hc⟩
      refine ⟨by omega, by omega, by omega, by simp, ?_⟩
      unfold parseFromHex
      rw [if_neg (by simp), if_pos (by rfl), parse4 hns, ha, hb, hc]
      simp only [Option.bind_eq_bind, Option.bind_some, Option.map_some, mul17 la, mul17 lb, mul17 lc]
    · cases h
  obtain ⟨h1, h2, h3, hne, hp⟩ := hp
  refine ⟨h1, h2, h3, ?_, ?_⟩
  · simp only [newWithWriter, List.foldlM_cons, List.foldlM_nil, apply, hp, Option.map_some]
    rfl
  · simp only [newWithWriter, List.foldlM_cons, List.foldlM_nil, apply, hp, Option.map_some, if_neg hne]
    rfl

/-- **C46, which strings are accepted.**  A string without spaces is accepted exactly if it is `#rgb`, or has seven bytes and
starts with `#` and five hexadecimal digits (the last byte may be anything, see `C46_sloppy`); otherwise the option panics. -/
theorem C46_accepts (s : Bytes) (hs : NoSpace s) : newWithWriter false [.fgHex s] ≠ none ↔
    (s.length = 4 ∧ (Spec.hexColor (codes s)).isSome = true) ∨
    (s.length = 7 ∧ (codes s).head? = some 35 ∧ ∀ b ∈ ((codes s).drop 1).take 5, (Spec.hexVal b).isSome = true) := by
  have h1 : newWithWriter false [.fgHex s] ≠ none ↔ parseFromHex s ≠ none := by
    simp only [newWithWriter, List.foldlM_cons, List.foldlM_nil, apply]
    cases parseFromHex s <;> simp
  rw [h1]
  unfold parseFromHex
  by_cases h7 : s.length = 7
  · rw [if_pos h7]
    obtain ⟨x, a, b, c, d, e, f, rfl⟩ := seven h7
    by_cases hx : x.toNat = 35
    · have := hash_byte hx
      subst this
      rw [parse7 (hs.tail (by decide))]
      have hno : ¬ ([0x23, a, b, c, d, e, f] : Bytes).length = 4 := by simp
      simp only [hno, false_and, false_or, codes, List.map_cons, List.map_nil, List.head?_cons, List.drop_succ_cons, List.drop_zero,
        List.take_succ_cons, List.take_zero, List.mem_cons, List.not_mem_nil, or_false, List.length_cons, List.length_nil]
      unfold lastChan
      cases ha : Spec.hexVal a.toNat <;> cases hb : Spec.hexVal b.toNat <;> cases hc : Spec.hexVal c.toNat <;>
        cases hd : Spec.hexVal d.toNat <;> cases he : Spec.hexVal e.toNat <;> cases hf : Spec.hexVal f.toNat <;>
        simp [ha, hb, hc, hd, he]
    · rw [sscanf_hash hx]
      simp [codes, hx]
  · rw [if_neg h7]
    by_cases h4 : s.length = 4
    · rw [if_pos h4]
      obtain ⟨x, a, b, c, rfl⟩ := four h4
      by_cases hx : x.toNat = 35
      · have := hash_byte hx
        subst this
        rw [parse4 (hs.tail (by decide))]
        simp only [codes, List.map_cons, List.map_nil]
        have e35 : UInt8.toNat 0x23 = 35 := by decide
        rw [e35]
        unfold Spec.hexColor
        cases ha : Spec.hexVal a.toNat <;> cases hb : Spec.hexVal b.toNat <;> cases hc : Spec.hexVal c.toNat <;> simp [ha, hb, hc]
      · rw [sscanf_hash hx]
        have : (Spec.hexColor (codes [x, a, b, c])) = none := by
          unfold Spec.hexColor
          split
          · rename_i heq; simp [codes] at heq
          · rename_i heq; simp only [codes, List.map_cons, List.map_nil, List.cons.injEq] at heq; exact absurd heq.1 hx
          · rfl
        simp [this]
    · rw [if_neg h4]
      simp [h4, h7]

/-- **C46, what is accepted although it is not well-formed**: `#12345z` (blue is the single digit 5), and `# 1 2 3` (with spaces,
seven bytes, one digit per channel).  The empty string panics as a foreground and is ignored as a background. -/
theorem C46_sloppy :
    (newWithWriter false [.fgHex [0x23, 0x31, 0x32, 0x33, 0x34, 0x35, 0x7a]]).map (·.qrColor) = some ⟨0x12, 0x34, 0x05, 255⟩ ∧
    (newWithWriter false [.fgHex [0x23, 0x20, 0x31, 0x20, 0x32, 0x20, 0x33]]).map (·.qrColor) = some ⟨1, 2, 3, 255⟩ ∧
    (newWithWriter false [.fgHex []]).map (·.qrColor) = none ∧
    (newWithWriter false [.bgHex []]).map (·.bgColor) = some defaultOpts.bgColor := by
  decide +kernel

/-- The hypotheses of `C46_hex` and `C46_accepts` are met: `#FfA07a` and `#f0c`. -/
example : Spec.hexColor (codes [0x23, 0x46, 0x66, 0x41, 0x30, 0x37, 0x61]) = some (255, 160, 122) ∧
    Spec.hexColor (codes [0x23, 0x66, 0x30, 0x63]) = some (255, 0, 204) ∧
    NoSpace [0x23, 0x66, 0x30, 0x63] := by unfold NoSpace; decide +kernel

end QR.Standard
