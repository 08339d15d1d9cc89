import Verif.Model.CanvasShapes
import Verif.Props.Standard
import Mathlib.Tactic.NormNum
import Mathlib.Tactic.Linarith
/-!
# Fills, pixel by pixel
-/
namespace QR.Standard
open QR Plane

/-! ## Mixing a colour in -/

theorem coverChan_none (d c alpha : UInt8) : coverChan 0 d c alpha = d := by
  have h : ∀ d : Fin 256, ((((UInt8.ofFin d).toUInt32 * ((0xffff : UInt32) * 0x101)) / 0xffff) >>> 8).toUInt8 = UInt8.ofFin d := by decide +kernel
  have := h ⟨d.toNat, d.toNat_lt⟩
  unfold coverChan
  simp only [UInt32.mul_zero, UInt32.zero_div, UInt32.sub_zero, UInt32.add_zero]
  exact this

theorem cover_none (c p : RGBA) : cover 0 c p = p := by
  unfold cover
  simp only [coverChan_none]

theorem cover_full (c p : RGBA) : cover 0xffff c p = over c p := rfl

theorem coverChan_clear (ma : UInt32) (d : UInt8) : coverChan ma d 0 0 = d := by
  have := coverChan_none d 0 0
  unfold coverChan at this ⊢
  have e : (0 : UInt8).toUInt32 * 0x101 = 0 := by decide
  simp only [e, UInt32.zero_mul, UInt32.zero_div] at this ⊢
  exact this

theorem cover_clear (ma : UInt32) (p : RGBA) : cover ma ⟨0, 0, 0, 0⟩ p = p := by
  unfold cover
  simp only [coverChan_clear]

theorem coverChan_same {ma : UInt32} (h : ma ≤ 0xffff) (c : UInt8) : coverChan ma c c 255 = c := by
  have hm : ma.toNat ≤ 65535 := UInt32.le_iff_toNat_le.1 h
  have hc := c.toNat_lt
  have e1 : (255 : UInt8).toUInt32 * 0x101 = 0xffff := by decide
  unfold coverChan
  simp only [e1]
  have e2 : (0xffff : UInt32) * ma / 0xffff = ma := by
    apply UInt32.toNat_inj.1
    rw [UInt32.toNat_div, UInt32.toNat_mul]
    simp only [UInt32.reduceToNat]
    rw [Nat.mod_eq_of_lt (by omega)]
    omega
  rw [e2]
  have e3 : c.toUInt32 * ((0xffff - ma) * 0x101) + c.toUInt32 * 0x101 * ma = c.toUInt32 * (0xffff * 0x101) := by
    have : (0xffff - ma) * 0x101 + 0x101 * ma = (0xffff : UInt32) * 0x101 := by
      rw [UInt32.mul_comm 0x101 ma, ← UInt32.add_mul, UInt32.sub_add_cancel]
    rw [UInt32.mul_assoc, ← UInt32.mul_add, this]
  rw [e3]
  have hh : ∀ d : Fin 256, ((((UInt8.ofFin d).toUInt32 * ((0xffff : UInt32) * 0x101)) / 0xffff) >>> 8).toUInt8 = UInt8.ofFin d := by decide +kernel
  exact hh ⟨c.toNat, c.toNat_lt⟩

theorem cover_same {ma : UInt32} (h : ma ≤ 0xffff) {c : RGBA} (ha : c.a = 255) : cover ma c c = c := by
  obtain ⟨r, g, b, a⟩ := c
  simp only at ha
  subst ha
  unfold cover
  simp only [coverChan_same h]

/-- The picture after some fills, at one pixel. -/
theorem fills_pix (cov : Coverage) {px py : Int} : ∀ (l : List (RGBA × List Figure)) (cv : Canvas), 0 ≤ px → px < cv.w → 0 ≤ py → py < cv.h →
    (l.foldl (fun cv kp => cv.fillPath cov kp.1 kp.2) cv).pix px py = l.foldl (fun p kp => cover (cov kp.2 px py) kp.1 p) (cv.pix px py) := by
  intro l
  induction l with
  | nil => intros; rfl
  | cons a l ih =>
    intro cv h1 h2 h3 h4
    rw [List.foldl_cons, List.foldl_cons, ih (cv.fillPath cov a.1 a.2) h1 h2 h3 h4]
    congr 1
    unfold Canvas.fillPath
    simp only
    rw [if_pos ⟨h1, h2, h3, h4⟩]

theorem fills_size (cov : Coverage) : ∀ (l : List (RGBA × List Figure)) (cv : Canvas),
    (l.foldl (fun cv kp => cv.fillPath cov kp.1 kp.2) cv).w = cv.w ∧ (l.foldl (fun cv kp => cv.fillPath cov kp.1 kp.2) cv).h = cv.h := by
  intro l
  induction l with
  | nil => intro cv; exact ⟨rfl, rfl⟩
  | cons a l ih => intro cv; rw [List.foldl_cons]; exact ih _

/-- Fills of one opaque colour (and fills that do not touch the pixel) give it that colour once one of them covers it fully. -/
theorem fold_solid {cov : List Figure → UInt32} (hle : ∀ p, cov p ≤ 0xffff) {k : RGBA} (hk : k.a = 255) : ∀ (l : List (RGBA × List Figure)) (p : RGBA),
    (∀ kp ∈ l, cov kp.2 = 0 ∨ kp.1 = k) → (p = k ∨ ∃ kp ∈ l, kp.1 = k ∧ cov kp.2 = 0xffff) →
    l.foldl (fun p kp => cover (cov kp.2) kp.1 p) p = k := by
  intro l
  induction l with
  | nil =>
    intro p _ h
    rcases h with h | ⟨_, h, _⟩
    · exact h
    · cases h
  | cons a l ih =>
    intro p h1 h2
    rw [List.foldl_cons]
    refine ih _ (fun kp hkp => h1 kp (List.mem_cons_of_mem _ hkp)) ?_
    have keep : p = k → cover (cov a.2) a.1 p = k := by
      intro hp
      rcases h1 a List.mem_cons_self with h | h
      · rw [h, cover_none, hp]
      · rw [h, hp, cover_same (hle _) hk]
    rcases h2 with h2 | ⟨kp, hm, e1, e2⟩
    · exact .inl (keep h2)
    · rcases List.mem_cons.1 hm with rfl | hm
      · rw [e1, e2, cover_full, over_opaque hk]; exact .inl rfl
      · exact .inr ⟨kp, hm, e1, e2⟩

/-- Fills that leave the pixel as it is. -/
theorem fold_same {cov : List Figure → UInt32} {p : RGBA} : ∀ (l : List (RGBA × List Figure)), (∀ kp ∈ l, cover (cov kp.2) kp.1 p = p) →
    l.foldl (fun p kp => cover (cov kp.2) kp.1 p) p = p := by
  intro l
  induction l with
  | nil => intro _; rfl
  | cons a l ih =>
    intro h
    rw [List.foldl_cons, h a List.mem_cons_self]
    exact ih fun kp hkp => h kp (List.mem_cons_of_mem _ hkp)

/-! ## The calls of a drawing -/

/-- The path left behind by a drawing. -/
def colourLeft : List Figure → List (RGBA × Cmd) → List Figure
  | path, [] => path
  | path, (_, .add f) :: rest => colourLeft (path ++ [f]) rest
  | _, (_, .fill) :: rest => colourLeft [] rest

theorem sheet_cmds (cov : Coverage) : ∀ (cmds : List (RGBA × Cmd)) (s : Sheet),
    cmds.foldl (fun s kc => s.cmd cov kc.1 kc.2) s =
      ⟨(colourFills s.path cmds).foldl (fun cv kp => cv.fillPath cov kp.1 kp.2) s.cv, colourLeft s.path cmds⟩ := by
  intro cmds
  induction cmds with
  | nil => intro s; rfl
  | cons a cmds ih =>
    intro s
    obtain ⟨k, c⟩ := a
    rw [List.foldl_cons, ih]
    cases c with
    | add f => rfl
    | fill => rfl

/-- What the calls of a drawing do on the context. -/
def drawingRun (run : Shape → Bool → Ctx → List Cmd) (calls : List (Bool × Shape × Ctx)) : List (RGBA × Cmd) :=
  calls.flatMap fun a => (run a.2.1 a.1 a.2.2).map fun k => (a.2.2.color, k)

/-- The shapes of a drawing, as calls on the context. -/
theorem sheet_shapes (cov : Coverage) (run : Shape → Bool → Ctx → List Cmd) (blend : Blend) (grad : GradientPainter) :
    ∀ (calls : List (Bool × Shape × Ctx)) (s : Sheet),
      (calls.map fun a => DrawOp.shape a.1 a.2.1 a.2.2).foldlM (Sheet.opRun cov run blend grad) s =
        some ((drawingRun run calls).foldl (fun s kc => s.cmd cov kc.1 kc.2) s) := by
  intro calls
  induction calls with
  | nil => intro s; rfl
  | cons a calls ih =>
    intro s
    rw [List.map_cons, List.foldlM_cons]
    change (List.foldlM (Sheet.opRun cov run blend grad) ((run a.2.1 a.1 a.2.2).foldl (Sheet.cmd cov a.2.2.color) s) _) = _
    rw [ih]
    unfold drawingRun
    rw [List.flatMap_cons, List.foldl_append, List.foldl_map]

end QR.Standard
