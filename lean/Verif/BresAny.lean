import Verif.Bres
import Mathlib.Tactic.Linarith

/-!
What the line walker keeps for all cells whatever, also where its `short` coordinates wrap around: the cells of the grid come first.
-/

namespace Verif.Bres

/-- Change of the first coordinate in a step, if it changes. -/
def ax (l : LineData) : Int := if l.slopeType = 1 then l.inc4 else l.inc5

/-- Change of the second coordinate in a step, if it changes. -/
def ay (l : LineData) : Int := if l.slopeType = 1 then l.inc5 else l.inc4

theorem short_range (n : Int) : -32768 ≤ short n ∧ short n ≤ 32767 := by
  unfold short; rw [Int.bmod_def]; split <;> omega

theorem short_lt {n m : Int} (h0 : 0 ≤ n) (h : n < m) : short n < m := by
  unfold short; rw [Int.bmod_def]; split <;> omega

theorem block_moves (st dx dy inc4 o1 o2 : Int) (u : Bool) (hs : st = 1 ∨ st = -1) (h : inc4 = 1 ∨ inc4 = -1) :
    (block st dx dy inc4 o1 o2 u).slopeType ≠ 0 ∧
    (ax (block st dx dy inc4 o1 o2 u) = 1 ∨ ax (block st dx dy inc4 o1 o2 u) = -1) ∧
    (ay (block st dx dy inc4 o1 o2 u) = 1 ∨ ay (block st dx dy inc4 o1 o2 u) = -1) := by
  have e1 : (block st dx dy inc4 o1 o2 u).slopeType = st := by unfold block; cases u <;> rfl
  have e2 : (block st dx dy inc4 o1 o2 u).inc4 = inc4 := by unfold block; cases u <;> rfl
  have e3 : (block st dx dy inc4 o1 o2 u).inc5 = 1 ∨ (block st dx dy inc4 o1 o2 u).inc5 = -1 := by
    unfold block; cases u
    · exact Or.inl rfl
    · exact Or.inr rfl
  unfold ax ay
  rw [e1, e2]
  generalize (block st dx dy inc4 o1 o2 u).inc5 = c at *
  refine ⟨by omega, ?_, ?_⟩ <;> split <;> omega

theorem initLine_block (sx sy ex ey : Int) : ∃ st dx dy inc4 o1 o2 u, initLine sx sy ex ey = block st dx dy inc4 o1 o2 u ∧
    (st = 1 ∨ st = -1) ∧ (inc4 = 1 ∨ inc4 = -1) := by
  by_cases h : short (sx - ex).natAbs > short (sy - ey).natAbs
  · by_cases h2 : sx > ex
    · refine ⟨1, short (sy - ey).natAbs, short (sx - ex), -1, 5, 4, decide (sy ≥ ey), ?_, by decide, by decide⟩
      unfold initLine
      simp only [decide_eq_true h, if_true]
      rw [if_pos h2]
    · refine ⟨1, short (sy - ey).natAbs, short (ex - sx), 1, 8, 1, decide (sy ≥ ey), ?_, by decide, by decide⟩
      unfold initLine
      simp only [decide_eq_true h, if_true]
      rw [if_neg h2]
  · by_cases h2 : sy > ey
    · refine ⟨-1, short (sx - ex).natAbs, short (sy - ey), -1, 5, 4, decide (sx ≥ ex), ?_, by decide, by decide⟩
      unfold initLine
      simp only [decide_eq_false h, Bool.false_eq_true, if_false]
      rw [if_pos h2]
    · refine ⟨-1, short (sx - ex).natAbs, short (ey - sy), 1, 8, 1, decide (sx ≥ ex), ?_, by decide, by decide⟩
      unfold initLine
      simp only [decide_eq_false h, Bool.false_eq_true, if_false]
      rw [if_neg h2]

theorem initLine_moves (sx sy ex ey : Int) : (initLine sx sy ex ey).slopeType ≠ 0 ∧
    (ax (initLine sx sy ex ey) = 1 ∨ ax (initLine sx sy ex ey) = -1) ∧
    (ay (initLine sx sy ex ey) = 1 ∨ ay (initLine sx sy ex ey) = -1) := by
  obtain ⟨st, dx, dy, inc4, o1, o2, u, e, h1, h2⟩ := initLine_block sx sy ex ey
  rw [e]
  exact block_moves st dx dy inc4 o1 o2 u h1 h2

theorem move_moves (sx ex x y : Int) (l : LineData) :
    ((move sx ex x y l).1 = x ∨ (move sx ex x y l).1 = short (x + l.inc5)) ∧
    ((move sx ex x y l).2.1 = y ∨ (move sx ex x y l).2.1 = short (y + l.inc4)) ∧
    (move sx ex x y l).2.2.slopeType = l.slopeType ∧ (move sx ex x y l).2.2.inc4 = l.inc4 ∧
    (move sx ex x y l).2.2.inc5 = l.inc5 := by
  unfold move
  simp only
  split_ifs <;> simp

/-- The state in which a step starts. -/
def from0 (sx sy ex ey : Int) (t : State) : State := if t.l.slopeType = 0 then started sx sy ex ey else t

/-- A step from this state. -/
def stepFrom (sx sy ex ey : Int) (t0 : State) : State :=
  if t0.l.slopeType = 1 then
    { x := (move sy ey t0.y t0.x t0.l).2.1, y := (move sy ey t0.y t0.x t0.l).1, l := (move sy ey t0.y t0.x t0.l).2.2 }
  else { x := (move sx ex t0.x t0.y t0.l).1, y := (move sx ex t0.x t0.y t0.l).2.1, l := (move sx ex t0.x t0.y t0.l).2.2 }

theorem nextCell_from (sx sy ex ey : Int) (t : State) :
    nextCell sx sy ex ey t = stepFrom sx sy ex ey (from0 sx sy ex ey t) := rfl

theorem nextCell_moves (sx sy ex ey : Int) (t : State) :
    let t0 := from0 sx sy ex ey t
    let t' := nextCell sx sy ex ey t
    t'.l.slopeType = t0.l.slopeType ∧ ax t'.l = ax t0.l ∧ ay t'.l = ay t0.l ∧
    (t'.x = t0.x ∨ t'.x = short (t0.x + ax t0.l)) ∧ (t'.y = t0.y ∨ t'.y = short (t0.y + ay t0.l)) := by
  intro t0 t'
  have e : t' = if t0.l.slopeType = 1 then
      { x := (move sy ey t0.y t0.x t0.l).2.1, y := (move sy ey t0.y t0.x t0.l).1, l := (move sy ey t0.y t0.x t0.l).2.2 }
      else { x := (move sx ex t0.x t0.y t0.l).1, y := (move sx ex t0.x t0.y t0.l).2.1, l := (move sx ex t0.x t0.y t0.l).2.2 } := rfl
  by_cases h : t0.l.slopeType = 1
  · rw [if_pos h] at e
    obtain ⟨h1, h2, h3, h4, h5⟩ := move_moves sy ey t0.y t0.x t0.l
    rw [e]
    unfold ax ay
    simp only [h3, h, if_true, h4, h5]
    exact ⟨trivial, trivial, trivial, h2, h1⟩
  · rw [if_neg h] at e
    obtain ⟨h1, h2, h3, h4, h5⟩ := move_moves sx ex t0.x t0.y t0.l
    rw [e]
    unfold ax ay
    simp only [h3, h, if_false, h4, h5]
    exact ⟨trivial, trivial, trivial, h1, h2⟩

/-- A state of the walk from a cell of the grid. -/
structure Going (nx ny : Int) (t : State) : Prop where
  x0 : -32768 ≤ t.x
  x1 : t.x ≤ 32767
  y0 : -32768 ≤ t.y
  y1 : t.y ≤ 32767
  slope : t.l.slopeType ≠ 0
  dirX : ax t.l = 1 ∨ ax t.l = -1
  dirY : ay t.l = 1 ∨ ay t.l = -1
  west : ax t.l = -1 → t.x < nx
  south : ay t.l = -1 → t.y < ny

theorem going_started {nx ny u v ex ey : Int} (hu : -32768 ≤ u ∧ u ≤ 32767) (hv : -32768 ≤ v ∧ v ≤ 32767) (hx : u < nx)
    (hy : v < ny) : Going nx ny (started u v ex ey) := by
  obtain ⟨h1, h2, h3⟩ := initLine_moves u v ex ey
  unfold started
  generalize initLine u v ex ey = l at *
  exact ⟨hu.1, hu.2, hv.1, hv.2, h1, h2, h3, fun _ => hx, fun _ => hy⟩

theorem short_wrap {n : Int} (h0 : -32768 ≤ n) (h1 : n ≤ 32767) (a : Int) (ha : a = 1 ∨ a = -1) :
    short (n + a) = n + a ∨ (n = 32767 ∧ a = 1 ∧ short (n + a) = -32768) ∨ (n = -32768 ∧ a = -1 ∧ short (n + a) = 32767) := by
  unfold short
  rw [Int.bmod_def]
  rcases ha with rfl | rfl <;> split <;> omega

theorem Going.next {nx ny sx sy ex ey : Int} {t : State} (h : Going nx ny t) (hx : 0 ≤ t.x) (hy : 0 ≤ t.y) :
    Going nx ny (nextCell sx sy ex ey t) ∧
    (nx ≤ t.x → t.x ≤ nx → ¬ (0 ≤ (nextCell sx sy ex ey t).x ∧ (nextCell sx sy ex ey t).x < nx)) ∧
    (ny ≤ t.y → t.y ≤ ny → ¬ (0 ≤ (nextCell sx sy ex ey t).y ∧ (nextCell sx sy ex ey t).y < ny)) := by
  have m := nextCell_moves sx sy ex ey t
  simp only at m
  have e : from0 sx sy ex ey t = t := by unfold from0; rw [if_neg h.slope]
  rw [e] at m
  obtain ⟨m1, m2, m3, m4, m5⟩ := m
  generalize nextCell sx sy ex ey t = t' at *
  obtain ⟨x0, x1, y0, y1, hs, hax, hay, hw, hso⟩ := h
  have wx := short_wrap x0 x1 _ hax
  have wy := short_wrap y0 y1 _ hay
  have rx := short_range (t.x + ax t.l)
  have ry := short_range (t.y + ay t.l)
  refine ⟨⟨?_, ?_, ?_, ?_, by rw [m1]; exact hs, by rw [m2]; exact hax, by rw [m3]; exact hay, ?_, ?_⟩, ?_, ?_⟩
  · rcases m4 with m4 | m4 <;> rw [m4] <;> omega
  · rcases m4 with m4 | m4 <;> rw [m4] <;> omega
  · rcases m5 with m5 | m5 <;> rw [m5] <;> omega
  · rcases m5 with m5 | m5 <;> rw [m5] <;> omega
  · rw [m2]; intro g; have := hw g; rw [g] at m4 wx
    rcases m4 with m4 | m4 <;> rw [m4] <;> omega
  · rw [m3]; intro g; have := hso g; rw [g] at m5 wy
    rcases m5 with m5 | m5 <;> rw [m5] <;> omega
  · intro g1 g2
    have : ax t.l = 1 := by
      rcases hax with g | g
      · exact g
      · have := hw g; omega
    rw [this] at m4 wx
    rcases m4 with m4 | m4 <;> rw [m4] <;> omega
  · intro g1 g2
    have : ay t.l = 1 := by
      rcases hay with g | g
      · exact g
      · have := hso g; omega
    rw [this] at m5 wy
    rcases m5 with m5 | m5 <;> rw [m5] <;> omega

/-- A cell of the grid. -/
def InGrid (nx ny : Int) (c : Int × Int) : Prop := 0 ≤ c.1 ∧ c.1 < nx ∧ 0 ≤ c.2 ∧ c.2 < ny

theorem lineLoop_out (nx ny sx sy ex ey : Int) (n : Nat) (t : State) (h : Going nx ny t) (ho : ¬ InGrid nx ny (t.x, t.y)) :
    ∀ c ∈ lineLoop nx ny sx sy ex ey n t, ¬ InGrid nx ny c := by
  induction n generalizing t with
  | zero => intro c hc; simp [lineLoop] at hc
  | succ n ih =>
    unfold lineLoop
    split_ifs with h1 h2
    · intro c hc; simp at hc
    · obtain ⟨g1, g2, g3⟩ := h.next (sx := short sx) (sy := short sy) (ex := short ex) (ey := short ey) (by omega) (by omega)
      have ho' : ¬ InGrid nx ny ((nextCell (short sx) (short sy) (short ex) (short ey) t).x,
          (nextCell (short sx) (short sy) (short ex) (short ey) t).y) := by
        unfold InGrid at ho ⊢
        simp only at ho ⊢
        rintro ⟨a1, a2, a3, a4⟩
        by_cases hx : t.x = nx
        · exact g2 (by omega) (by omega) ⟨a1, a2⟩
        · exact g3 (by omega) (by omega) ⟨a3, a4⟩
      intro c hc
      rcases List.mem_cons.1 hc with rfl | hc
      · exact ho'
      · exact ih _ g1 ho' c hc
    · intro c hc; simp at hc

theorem lineLoop_split (nx ny sx sy ex ey : Int) (hx : short sx < nx) (hy : short sy < ny) (n : Nat) (t : State)
    (h : (t.l.slopeType = 0 ∧ t.x = short sx ∧ t.y = short sy) ∨ Going nx ny t) :
    ∃ a b, lineLoop nx ny sx sy ex ey n t = a ++ b ∧ (∀ c ∈ a, InGrid nx ny c) ∧ ∀ c ∈ b, ¬ InGrid nx ny c := by
  induction n generalizing t with
  | zero => exact ⟨[], [], rfl, by simp, by simp⟩
  | succ n ih =>
    unfold lineLoop
    split_ifs with h1 h2
    · exact ⟨[], [], rfl, by simp, by simp⟩
    · have hg : Going nx ny (nextCell (short sx) (short sy) (short ex) (short ey) t) := by
        rcases h with ⟨h, ex', ey'⟩ | h
        · have e : nextCell (short sx) (short sy) (short ex) (short ey) t =
              nextCell (short sx) (short sy) (short ex) (short ey) (started (short sx) (short sy) (short ex) (short ey)) := by
            have hs := (initLine_moves (short sx) (short sy) (short ex) (short ey)).1
            have e1 : from0 (short sx) (short sy) (short ex) (short ey) t = started (short sx) (short sy) (short ex) (short ey) := by
              unfold from0; rw [if_pos h]
            have e2 : from0 (short sx) (short sy) (short ex) (short ey) (started (short sx) (short sy) (short ex) (short ey)) =
                started (short sx) (short sy) (short ex) (short ey) := by
              unfold from0; exact ite_self _
            rw [nextCell_from, nextCell_from (t := started _ _ _ _), e1, e2]
          rw [e]
          refine ((going_started (short_range sx) (short_range sy) hx hy).next ?_ ?_).1
          · show 0 ≤ short sx; omega
          · show 0 ≤ short sy; omega
        · exact (h.next (by omega) (by omega)).1
      simp only
      generalize nextCell (short sx) (short sy) (short ex) (short ey) t = t' at *
      by_cases hin : InGrid nx ny (t'.x, t'.y)
      · obtain ⟨a, b, e, ha, hb⟩ := ih t' (Or.inr hg)
        refine ⟨(t'.x, t'.y) :: a, b, by rw [e]; rfl, ?_, hb⟩
        intro c hc
        rcases List.mem_cons.1 hc with rfl | hc
        · exact hin
        · exact ha c hc
      · refine ⟨[], _, rfl, by simp, ?_⟩
        intro c hc
        rcases List.mem_cons.1 hc with rfl | hc
        · exact hin
        · exact lineLoop_out nx ny sx sy ex ey n t' hg hin c hc
    · exact ⟨[], [], rfl, by simp, by simp⟩

/-- The cells of the grid come first in the line. -/
theorem findLine_split (nx ny : Int) (s e : Int × Int) (junk : LineData) (hs : InGrid nx ny s) :
    ∃ a b, findLine nx ny s.1 s.2 e.1 e.2 junk = s :: (a ++ b) ∧ (∀ c ∈ a, InGrid nx ny c) ∧ ∀ c ∈ b, ¬ InGrid nx ny c := by
  obtain ⟨a, b, h, ha, hb⟩ := lineLoop_split nx ny s.1 s.2 e.1 e.2 (short_lt hs.1 hs.2.1) (short_lt hs.2.2.1 hs.2.2.2) (maxSize - 1)
    { x := short s.1, y := short s.2, l := { junk with slopeType := 0 } } (Or.inl ⟨rfl, rfl, rfl⟩)
  exact ⟨a, b, by unfold findLine; rw [h], ha, hb⟩

theorem lineLoop_junk (nx ny sx sy ex ey : Int) (n : Nat) (t t' : State) (hx : t.x = t'.x) (hy : t.y = t'.y)
    (h : t.l.slopeType = 0) (h' : t'.l.slopeType = 0) : lineLoop nx ny sx sy ex ey n t = lineLoop nx ny sx sy ex ey n t' := by
  cases n with
  | zero => rfl
  | succ n =>
    have e : ∀ a b c d, nextCell a b c d t = nextCell a b c d t' := by
      intro a b c d
      rw [nextCell_from, nextCell_from (t := t')]
      unfold from0
      rw [if_pos h, if_pos h']
    unfold lineLoop
    rw [hx, hy]
    simp only [e]

/-- The line does not depend on what the structure held before. -/
theorem findLine_junk (nx ny sx sy ex ey : Int) (junk junk' : LineData) :
    findLine nx ny sx sy ex ey junk = findLine nx ny sx sy ex ey junk' := by
  unfold findLine
  exact congrArg _ (lineLoop_junk nx ny sx sy ex ey _ _ _ rfl rfl rfl rfl)

theorem lineLoop_length (nx ny sx sy ex ey : Int) (n : Nat) (t : State) : (lineLoop nx ny sx sy ex ey n t).length ≤ n := by
  induction n generalizing t with
  | zero => simp [lineLoop]
  | succ n ih =>
    unfold lineLoop
    split_ifs
    · simp
    · simp only [List.length_cons]; have := ih (nextCell (short sx) (short sy) (short ex) (short ey) t); omega
    · simp

end Verif.Bres
