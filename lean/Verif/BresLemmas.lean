import Verif.Bres
import Mathlib.Tactic.Linarith
import Mathlib.Tactic.Ring

/-!
Helper lemmas for `BresProps`: the invariant of the line walker.
-/

namespace Verif.Bres

theorem short_id {n : Int} (h1 : -32768 ≤ n) (h2 : n ≤ 32767) : short n = n := by
  unfold short
  rw [Int.bmod_def]
  split <;> omega

/-- Direction along an axis. -/
def dirMinor (u0 u1 : Int) : Int := if u0 ≥ u1 then -1 else 1
def dirMajor (v0 v1 : Int) : Int := if v0 > v1 then -1 else 1

/-- The structure after `k` steps, `q` of which moved the minor coordinate. -/
def lineAt (slopeType u0 v0 u1 v1 : Int) (k q : Int) : LineData :=
  let a : Int := (u0 - u1).natAbs
  let b : Int := (v0 - v1).natAbs
  let t := 2 * (a * k) + 2 * a - b - 2 * (b * q)
  { dx := a, dy := b, slopeType := slopeType
    inc4 := dirMajor v0 v1, inc5 := dirMinor u0 u1
    d := dirMinor u0 u1 * t
    inc1 := dirMinor u0 u1 * (2 * a)
    inc2 := if u0 ≥ u1 then -2 * (a - b) else short (2 * (a + b))
    inc3 := if u0 ≥ u1 then short (-2 * (a + b)) else 2 * (a - b)
    octent := if v0 > v1 then (if u0 ≥ u1 then 5 else 4) else (if u0 ≥ u1 then 8 else 1) }

/-- After `k` steps: `q` moves of the minor coordinate, never further than half a cell from the line. -/
structure Inv (slopeType u0 v0 u1 v1 : Int) (k q : Int) (u v : Int) (l : LineData) : Prop where
  q0 : 0 ≤ q
  qa : q ≤ (u0 - u1).natAbs
  hu : u = u0 + q * dirMinor u0 u1
  hv : v = v0 + k * dirMajor v0 v1
  hl : l = lineAt slopeType u0 v0 u1 v1 k q
  lo : -((v0 - v1).natAbs : Int) ≤ 2 * (((u0 - u1).natAbs : Int) * k) - 2 * (((v0 - v1).natAbs : Int) * q)
  hi : 2 * (((u0 - u1).natAbs : Int) * k) - 2 * (((v0 - v1).natAbs : Int) * q) ≤ ((v0 - v1).natAbs : Int)

theorem Inv.start {st u0 v0 u1 v1 : Int} :
    Inv st u0 v0 u1 v1 0 0 u0 v0 (lineAt st u0 v0 u1 v1 0 0) := by
  constructor <;> simp <;> omega

theorem minor_bound {a b k q : Int} (hb : 0 < b) (ha : 0 ≤ a) (hk : k ≤ b)
    (lo : -b ≤ 2 * (a * k) - 2 * (b * q)) : q ≤ a := by
  by_contra h
  have h1 : b * (a + 1) ≤ b * q := by
    apply Int.mul_le_mul_of_nonneg_left <;> omega
  have h2 : a * k ≤ a * b := Int.mul_le_mul_of_nonneg_left hk ha
  have h3 : b * (a + 1) = a * b + b := by ring
  omega

/-- What `move` does, written with the quantity `t` that decides it. -/
theorem move_lineAt {st u0 v0 u1 v1 k q : Int} (u v : Int) (hq : u0 = u1 → q = 0) :
    let a : Int := (u0 - u1).natAbs
    let b : Int := (v0 - v1).natAbs
    let t := 2 * (a * k) + 2 * a - b - 2 * (b * q)
    move u0 u1 u v (lineAt st u0 v0 u1 v1 k q) =
      if (u0 < u1 ∧ 0 < t) ∨ (u0 > u1 ∧ 0 ≤ t) then
        (short (u + dirMinor u0 u1), short (v + dirMajor v0 v1),
          { lineAt st u0 v0 u1 v1 k q with d := short (dirMinor u0 u1 * (t + 2 * a - 2 * b)) })
      else (u, short (v + dirMajor v0 v1),
          { lineAt st u0 v0 u1 v1 k q with d := short (dirMinor u0 u1 * (t + 2 * a)) }) := by
  intro a b t
  have ha : 0 ≤ a := by omega
  have hb : 0 ≤ b := by omega
  by_cases h5 : (lineAt st u0 v0 u1 v1 k q).octent = 5 ∨ (lineAt st u0 v0 u1 v1 k q).octent = 8
  · have hge : u0 ≥ u1 := by
      by_contra hc
      simp only [lineAt, if_neg hc] at h5
      split at h5 <;> omega
    have hlt : ¬ u0 < u1 := by omega
    have hd : dirMinor u0 u1 = -1 := if_pos hge
    unfold move
    rw [if_pos h5]
    simp only [lineAt, hd, if_pos hge]
    by_cases he : u0 = u1
    · have ha0 : a = 0 := by omega
      have hq0 := hq he
      have c1 : (u0 ≤ u1 ∧ -1 * (2 * (a * k) + 2 * a - b - 2 * (b * q)) ≥ 0) ∨
          (u0 > u1 ∧ -1 * (2 * (a * k) + 2 * a - b - 2 * (b * q)) ≤ 0) := by
        left; rw [ha0, hq0]; omega
      have c2 : (u0 ≥ u1 ∧ a ≤ 0) ∨ (u0 < u1 ∧ a ≥ 0) := by omega
      have c3 : ¬ ((u0 < u1 ∧ 0 < t) ∨ (u0 > u1 ∧ 0 ≤ t)) := by omega
      rw [if_pos c1, if_pos c2, if_neg c3]
      congr 4
      show -1 * t - -1 * (2 * a) = -1 * (t + 2 * a)
      omega
    · have hgt : u0 > u1 := by omega
      have ha1 : 0 < a := by omega
      by_cases ht : 0 ≤ t
      · have c1 : (u0 ≤ u1 ∧ -1 * (2 * (a * k) + 2 * a - b - 2 * (b * q)) ≥ 0) ∨
            (u0 > u1 ∧ -1 * (2 * (a * k) + 2 * a - b - 2 * (b * q)) ≤ 0) := by
          right; refine ⟨hgt, ?_⟩; show -1 * t ≤ 0; omega
        have c2 : ¬ ((u0 ≥ u1 ∧ a ≤ 0) ∨ (u0 < u1 ∧ a ≥ 0)) := by omega
        have c3 : (u0 < u1 ∧ 0 < t) ∨ (u0 > u1 ∧ 0 ≤ t) := by omega
        rw [if_pos c1, if_neg c2, if_pos c3]
        congr 4
        show -1 * t + -2 * (a - b) = _
        omega
      · have c1 : ¬ ((u0 ≤ u1 ∧ -1 * (2 * (a * k) + 2 * a - b - 2 * (b * q)) ≥ 0) ∨
            (u0 > u1 ∧ -1 * (2 * (a * k) + 2 * a - b - 2 * (b * q)) ≤ 0)) := by
          show ¬ ((u0 ≤ u1 ∧ -1 * t ≥ 0) ∨ (u0 > u1 ∧ -1 * t ≤ 0)); omega
        have c2 : (u0 ≥ u1 ∧ a ≥ 0) ∨ (u0 < u1 ∧ a ≤ 0) := by omega
        have c3 : ¬ ((u0 < u1 ∧ 0 < t) ∨ (u0 > u1 ∧ 0 ≤ t)) := by omega
        rw [if_neg c1, if_pos c2, if_neg c3]
        congr 4
        show -1 * t + -1 * (2 * a) = _
        omega
  · have hlt : u0 < u1 := by
      by_contra hc
      have hge : u0 ≥ u1 := by omega
      simp only [lineAt, if_pos hge] at h5
      split at h5 <;> omega
    have hge : ¬ u0 ≥ u1 := by omega
    have hd : dirMinor u0 u1 = 1 := if_neg hge
    have h1 : (lineAt st u0 v0 u1 v1 k q).octent = 1 ∨ (lineAt st u0 v0 u1 v1 k q).octent = 4 := by
      simp only [lineAt, if_neg hge]
      split <;> omega
    have ha1 : 0 < a := by omega
    unfold move
    rw [if_neg h5, if_pos h1]
    simp only [lineAt, hd, if_neg hge]
    by_cases ht : 0 < t
    · have c1 : ¬ ((u0 ≤ u1 ∧ 1 * (2 * (a * k) + 2 * a - b - 2 * (b * q)) ≤ 0) ∨
          (u0 > u1 ∧ 1 * (2 * (a * k) + 2 * a - b - 2 * (b * q)) ≥ 0)) := by
        show ¬ ((u0 ≤ u1 ∧ 1 * t ≤ 0) ∨ (u0 > u1 ∧ 1 * t ≥ 0)); omega
      have c2 : ¬ ((u0 ≥ u1 ∧ a ≥ 0) ∨ (u0 < u1 ∧ a ≤ 0)) := by omega
      have c3 : (u0 < u1 ∧ 0 < t) ∨ (u0 > u1 ∧ 0 ≤ t) := by omega
      rw [if_neg c1, if_neg c2, if_pos c3]
      congr 4
      show 1 * t + 2 * (a - b) = _
      omega
    · have c1 : (u0 ≤ u1 ∧ 1 * (2 * (a * k) + 2 * a - b - 2 * (b * q)) ≤ 0) ∨
          (u0 > u1 ∧ 1 * (2 * (a * k) + 2 * a - b - 2 * (b * q)) ≥ 0) := by
        show (u0 ≤ u1 ∧ 1 * t ≤ 0) ∨ (u0 > u1 ∧ 1 * t ≥ 0); omega
      have c2 : (u0 ≥ u1 ∧ a ≤ 0) ∨ (u0 < u1 ∧ a ≥ 0) := by omega
      have c3 : ¬ ((u0 < u1 ∧ 0 < t) ∨ (u0 > u1 ∧ 0 ≤ t)) := by omega
      rw [if_pos c1, if_pos c2, if_neg c3]
      congr 4
      show 1 * t + 1 * (2 * a) = _
      omega

/-- One step of the walker. -/
theorem Inv.step {st u0 v0 u1 v1 k q u v : Int} {l : LineData} (h : Inv st u0 v0 u1 v1 k q u v l)
    (hk0 : 0 ≤ k) (hk : k < (v0 - v1).natAbs) (hab : (u0 - u1).natAbs ≤ (v0 - v1).natAbs)
    (hb : (v0 - v1).natAbs ≤ 16383)
    (su0 : -32768 ≤ u0) (su1 : u0 ≤ 32767) (su2 : -32768 ≤ u1) (su3 : u1 ≤ 32767)
    (sv0 : -32768 ≤ v0) (sv1 : v0 ≤ 32767) (sv2 : -32768 ≤ v1) (sv3 : v1 ≤ 32767) :
    ∃ q', (q' = q ∨ (q' = q + 1 ∧ u0 ≠ u1)) ∧
      Inv st u0 v0 u1 v1 (k + 1) q' (move u0 u1 u v l).1 (move u0 u1 u v l).2.1 (move u0 u1 u v l).2.2 := by
  obtain ⟨q0, qa, hu, hv, hl, lo, hi⟩ := h
  have hq : u0 = u1 → q = 0 := by intro he; omega
  have hm := move_lineAt (st := st) (v0 := v0) (v1 := v1) (k := k) u v hq
  rw [hl, hm]
  clear hm
  have hdv : dirMajor v0 v1 = 1 ∧ v0 ≤ v1 ∨ dirMajor v0 v1 = -1 ∧ v1 < v0 := by
    unfold dirMajor; split <;> omega
  have hdu : dirMinor u0 u1 = 1 ∧ u0 < u1 ∨ dirMinor u0 u1 = -1 ∧ u1 ≤ u0 := by
    unfold dirMinor; split <;> omega
  set a : Int := ((u0 - u1).natAbs : Int) with ha
  set b : Int := ((v0 - v1).natAbs : Int) with hbdef
  have hkb : k < b := by omega
  have hab' : a ≤ b := by omega
  have hb' : b ≤ 16383 := by omega
  have ha0 : 0 ≤ a := by omega
  have hbound := fun q' (hq : -b ≤ 2 * (a * (k + 1)) - 2 * (b * q')) =>
    minor_bound (a := a) (b := b) (k := k + 1) (q := q') (by omega) ha0 (by omega) hq
  have e1 : a * (k + 1) = a * k + a := by ring
  have e2 : b * (q + 1) = b * q + b := by ring
  have hsv : short (v + dirMajor v0 v1) = v0 + (k + 1) * dirMajor v0 v1 := by
    have : v + dirMajor v0 v1 = v0 + (k + 1) * dirMajor v0 v1 := by rw [hv]; ring
    rw [this]
    rcases hdv with ⟨e, h1⟩ | ⟨e, h1⟩ <;> rw [e] <;> apply short_id <;> omega
  have hline : ∀ q' t, t = 2 * (a * (k + 1)) + 2 * a - b - 2 * (b * q') → -32768 ≤ t → t ≤ 32767 → -32767 ≤ t →
      { lineAt st u0 v0 u1 v1 k q with d := short (dirMinor u0 u1 * t) } = lineAt st u0 v0 u1 v1 (k + 1) q' := by
    intro q' t ht h1 h2 h3
    have : short (dirMinor u0 u1 * t) = dirMinor u0 u1 * t := by
      rcases hdu with ⟨e, h1⟩ | ⟨e, h1⟩ <;> rw [e] <;> apply short_id <;> omega
    rw [this, ht]
    rfl
  split
  · next hc =>
    have hq1 := hbound (q + 1) (by omega)
    refine ⟨q + 1, Or.inr ⟨rfl, by omega⟩, by omega, hq1, ?_, hsv, ?_, ?_, ?_⟩
    · have : u + dirMinor u0 u1 = u0 + (q + 1) * dirMinor u0 u1 := by rw [hu]; ring
      show short (u + dirMinor u0 u1) = _
      rw [this]
      rcases hdu with ⟨e, h1⟩ | ⟨e, h1⟩ <;> rw [e] <;> apply short_id <;> omega
    · apply hline <;> omega
    · show -b ≤ 2 * (a * (k + 1)) - 2 * (b * (q + 1)); omega
    · show 2 * (a * (k + 1)) - 2 * (b * (q + 1)) ≤ b; omega
  · next hc =>
    refine ⟨q, Or.inl rfl, q0, qa, hu, hsv, ?_, ?_, ?_⟩
    · apply hline
      · omega
      all_goals
        by_cases he : u0 = u1
        · have ha' : a = 0 := by omega
          have := hq he
          rw [ha', this]; omega
        · omega
    · show -b ≤ 2 * (a * (k + 1)) - 2 * (b * q)
      omega
    · show 2 * (a * (k + 1)) - 2 * (b * q) ≤ b
      by_cases he : u0 = u1
      · have ha' : a = 0 := by omega
        have := hq he
        rw [ha', this]; omega
      · omega

/-! ### The two orientations put together -/

/-- Both points fit a `short` and are at most 16383 cells apart along each axis. -/
structure Fits (sx sy ex ey : Int) : Prop where
  a0 : -32768 ≤ sx
  a1 : sx ≤ 32767
  b0 : -32768 ≤ sy
  b1 : sy ≤ 32767
  c0 : -32768 ≤ ex
  c1 : ex ≤ 32767
  d0 : -32768 ≤ ey
  d1 : ey ≤ 32767
  dx : (sx - ex).natAbs ≤ 16383
  dy : (sy - ey).natAbs ≤ 16383

/-- The state after `k` steps. -/
def Good (sx sy ex ey : Int) (k q : Int) (t : State) : Prop :=
  if (sx - ex).natAbs > (sy - ey).natAbs then Inv 1 sy sx ey ex k q t.y t.x t.l
  else Inv (-1) sx sy ex ey k q t.x t.y t.l

theorem initLine_eq {sx sy ex ey : Int} (f : Fits sx sy ex ey) :
    initLine sx sy ex ey =
      if (sx - ex).natAbs > (sy - ey).natAbs then lineAt 1 sy sx ey ex 0 0 else lineAt (-1) sx sy ex ey 0 0 := by
  obtain ⟨a0, a1, b0, b1, c0, c1, d0, d1, dx, dy⟩ := f
  have key : ∀ (st u0 v0 u1 v1 : Int), (u0 - u1).natAbs ≤ 16383 → (v0 - v1).natAbs ≤ 16383 →
      (if v0 > v1 then block st (u0 - u1).natAbs (short (v0 - v1)) (-1) 5 4 (decide (u0 ≥ u1))
        else block st (u0 - u1).natAbs (short (v1 - v0)) 1 8 1 (decide (u0 ≥ u1))) = lineAt st u0 v0 u1 v1 0 0 := by
    intro st u0 v0 u1 v1 h1 h2
    have e1 : v0 > v1 → short (v0 - v1) = ((v0 - v1).natAbs : Int) := by
      intro h; rw [short_id (by omega) (by omega)]; omega
    have e2 : ¬ v0 > v1 → short (v1 - v0) = ((v0 - v1).natAbs : Int) := by
      intro h; rw [short_id (by omega) (by omega)]; omega
    have ea : (0 : Int) ≤ (u0 - u1).natAbs := by omega
    have eb : (0 : Int) ≤ (v0 - v1).natAbs := by omega
    have ea' : ((u0 - u1).natAbs : Int) ≤ 16383 := by omega
    have eb' : ((v0 - v1).natAbs : Int) ≤ 16383 := by omega
    unfold lineAt
    generalize ((u0 - u1).natAbs : Int) = a at *
    generalize ((v0 - v1).natAbs : Int) = b at *
    have f1 : short (-1 * (2 * a - b)) = -1 * (2 * a - b) := short_id (by omega) (by omega)
    have f2 : short (-2 * a) = -2 * a := short_id (by omega) (by omega)
    have f3 : short (-2 * (a - b)) = -2 * (a - b) := short_id (by omega) (by omega)
    have g1 : short (1 * (2 * a - b)) = 1 * (2 * a - b) := short_id (by omega) (by omega)
    have g2 : short (2 * a) = 2 * a := short_id (by omega) (by omega)
    have g3 : short (2 * (a - b)) = 2 * (a - b) := short_id (by omega) (by omega)
    have z1 : 2 * (a * 0) + 2 * a - b - 2 * (b * 0) = 2 * a - b := by ring
    have z2 : -1 * (2 * a) = -2 * a := by ring
    have z3 : 1 * (2 * a) = 2 * a := by ring
    by_cases hu : u0 ≥ u1 <;> by_cases h : v0 > v1
    · simp only [if_pos h, if_pos hu, e1 h, block, decide_eq_true hu, if_true, dirMinor, dirMajor, f1, f2, f3, z1, z2]
    · simp only [if_neg h, if_pos hu, e2 h, block, decide_eq_true hu, if_true, dirMinor, dirMajor, f1, f2, f3, z1, z2]
    · simp only [if_pos h, if_neg hu, e1 h, block, decide_eq_false hu, Bool.false_eq_true, if_false, dirMinor,
        dirMajor, g1, g2, g3, z1, z3]
    · simp only [if_neg h, if_neg hu, e2 h, block, decide_eq_false hu, Bool.false_eq_true, if_false, dirMinor,
        dirMajor, g1, g2, g3, z1, z3]
  have s1 : short ((sx - ex).natAbs : Int) = (sx - ex).natAbs := short_id (by omega) (by omega)
  have s2 : short ((sy - ey).natAbs : Int) = (sy - ey).natAbs := short_id (by omega) (by omega)
  unfold initLine
  simp only [s1, s2]
  by_cases h : (sx - ex).natAbs > (sy - ey).natAbs
  · have hd : decide (((sx - ex).natAbs : Int) > ((sy - ey).natAbs : Int)) = true := by
      apply decide_eq_true; omega
    rw [if_pos h, hd]
    simp only [if_true]
    exact key 1 sy sx ey ex dy dx
  · have hd : decide (((sx - ex).natAbs : Int) > ((sy - ey).natAbs : Int)) = false := by
      apply decide_eq_false; omega
    rw [if_neg h, hd]
    simp only [Bool.false_eq_true, if_false]
    exact key (-1) sx sy ex ey dx dy

theorem good_started {sx sy ex ey : Int} (f : Fits sx sy ex ey) :
    Good sx sy ex ey 0 0 (started sx sy ex ey) := by
  unfold Good started
  rw [initLine_eq f]
  split <;> exact Inv.start

theorem nextCell_first {sx sy ex ey : Int} (f : Fits sx sy ex ey) (t : State) (h : t.l.slopeType = 0) :
    nextCell sx sy ex ey t = nextCell sx sy ex ey (started sx sy ex ey) := by
  have : (started sx sy ex ey).l.slopeType ≠ 0 := by
    unfold started; rw [initLine_eq f]; split <;> simp [lineAt]
  simp only [nextCell, if_pos h, if_neg this]

/-- One call. -/
theorem good_step {sx sy ex ey k q : Int} (f : Fits sx sy ex ey) {t : State} (h : Good sx sy ex ey k q t)
    (hk0 : 0 ≤ k) (hk : k < max ((sx - ex).natAbs : Int) ((sy - ey).natAbs : Int)) :
    ∃ q', (q' = q ∨ q' = q + 1 ∧ (if (sx - ex).natAbs > (sy - ey).natAbs then sy ≠ ey else sx ≠ ex)) ∧
      Good sx sy ex ey (k + 1) q' (nextCell sx sy ex ey t) := by
  obtain ⟨a0, a1, b0, b1, c0, c1, d0, d1, dx, dy⟩ := f
  unfold Good at h ⊢
  by_cases hs : (sx - ex).natAbs > (sy - ey).natAbs
  · rw [if_pos hs] at h
    simp only [if_pos hs]
    have hst : t.l.slopeType = 1 := by rw [h.hl]; rfl
    obtain ⟨q', hq', hi⟩ := h.step hk0 (by omega) (by omega) dx b0 b1 d0 d1 a0 a1 c0 c1
    refine ⟨q', hq', ?_⟩
    have h0 : ¬ t.l.slopeType = 0 := by omega
    simp only [nextCell, if_neg h0, if_pos hst]
    exact hi
  · rw [if_neg hs] at h
    simp only [if_neg hs]
    have hst : t.l.slopeType = -1 := by rw [h.hl]; rfl
    obtain ⟨q', hq', hi⟩ := h.step hk0 (by omega) (by omega) dy a0 a1 c0 c1 b0 b1 d0 d1
    refine ⟨q', hq', ?_⟩
    have h0 : ¬ t.l.slopeType = 0 := by omega
    have h1 : ¬ t.l.slopeType = 1 := by omega
    simp only [nextCell, if_neg h0, if_neg h1]
    exact hi

end Verif.Bres
