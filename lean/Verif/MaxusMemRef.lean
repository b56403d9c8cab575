import Verif.MaxusMemLemmas

/-!
The upwind-slope code with checked memory and exact arithmetic does the same as the model with functions for arrays (`Verif.Bres`,
`Verif.Horizon`), from which the properties of the slopes are proved.
-/

namespace Verif.MaxusMem
open Verif.CMem Verif.Bres
set_option linter.unusedVariables false

open Classical in
/-- Exact arithmetic with infinities and NaN. -/
noncomputable def real (height : ℝ) : Ar ℝ Horizon.Num (Option ℝ) where
  slope := fun x1 y1 z1 x2 y2 z2 =>
    Horizon.Num.div (z2 - (height + z1)) (Real.sqrt ((x2 - x1) * (x2 - x1) + (y2 - y1) * (y2 - y1)))
  lt := fun a b => decide (a.lt b)
  deg := Horizon.degrees

theorem search_same (height : ℝ) {a : Line ℝ} {N : Nat} {x y z : Nat → ℝ} (h : Prof a N x y z) {H : Buf Int}
    {i : Nat} {f : Nat → Nat} (hH : HBuf H N (i + 1) f) (fuel : Nat) (j : Nat) (hij : i < j) (hj : j < N) (hf : N ≤ fuel + j) :
    Done (search (real height) a N H i fuel j) fun v => ∃ m : Nat, v = m ∧ i < m ∧ m < N ∧
      Horizon.search N f (Horizon.cmpC x y z height f i).1 (Horizon.cmpC x y z height f i).2 fuel j = some m := by
  induction fuel generalizing j with
  | zero => omega
  | succ fuel ih =>
    obtain ⟨n1, n2, n3⟩ := hH.next (j := j) (by omega) hj
    unfold search
    rw [slopeOf_eq _ h (by omega) hj]
    show Done (Except.bind (H.rd _) _) _
    rw [hH.rd (by omega) hj]
    show Done (Except.bind (slopeOf _ a _ _) _) _
    rw [slopeOf_eq _ h hj n2]
    show Done (ite _ _ _) _
    have eA : (real height).slope (x i) (y i) (z i) (x j) (y j) (z j) = (Horizon.cmpC x y z height f i).1 j := rfl
    have eB : (real height).slope (x j) (y j) (z j) (x (f j)) (y (f j)) (z (f j)) = (Horizon.cmpC x y z height f i).2 j := rfl
    rw [eA, eB]
    unfold Horizon.search
    by_cases c1 : ((Horizon.cmpC x y z height f i).1 j).lt ((Horizon.cmpC x y z height f i).2 j)
    · rw [if_pos (by simp [real, c1]), if_pos c1]
      by_cases c2 : j = N - 1
      · rw [if_pos (by omega), if_pos c2]
        exact done_ok ⟨j, rfl, hij, hj, rfl⟩
      · rw [if_neg (by omega), if_neg c2]
        have := n3 c2
        exact ih (f j) (by omega) n2 (by omega)
    · rw [if_neg (by simp [real, c1]), if_neg c1]
      by_cases c2 : ((Horizon.cmpC x y z height f i).2 j).lt ((Horizon.cmpC x y z height f i).1 j)
      · rw [if_pos (by simp [real, c2]), if_pos c2]
        exact done_ok ⟨j, rfl, hij, hj, rfl⟩
      · rw [if_neg (by simp [real, c2]), if_neg c2]
        exact done_ok ⟨f j, rfl, by omega, n2, rfl⟩

theorem outer_same (height : ℝ) {a : Line ℝ} {N : Nat} {x y z : Nat → ℝ} (h : Prof a N x y z) (n : Nat) (hn : n + 1 ≤ N)
    (H : Buf Int) (f : Nat → Nat) (hH : HBuf H N n f) :
    Done (forDown n (fun H i => (search (real height) a N H i N (i + 1)).bind fun v => H.wr i v) H) fun H' => ∃ f',
      Horizon.outer N (Horizon.cmpC x y z height) n f = some f' ∧ HBuf H' N 0 f' := by
  induction n generalizing H f with
  | zero => exact done_ok ⟨f, rfl, hH⟩
  | succ i ih =>
    unfold forDown Horizon.outer
    obtain ⟨v, e1, m, rfl, h1, h2, h3⟩ := search_same height h hH N (i + 1) (by omega) (by omega) (by omega)
    push_cast at e1
    simp only [e1, h3]
    obtain ⟨e2, e3⟩ := hH.set (by omega) m h1 h2
    show Done (Except.bind (H.wr _ _) _) _
    rw [e2]
    exact ih (by omega) _ _ e3

theorem hord_same (height : ℝ) {a : Line ℝ} {N : Nat} {x y z : Nat → ℝ} (h : Prof a N x y z) (hN : 1 ≤ N) (junk : Nat → Nat) :
    Done (hordMem (real height) a) fun v => Horizon.hord x y z height N junk = some v := by
  unfold hordMem
  rw [h.n]
  obtain ⟨e, hs⟩ := hbuf_start hN
  rw [e]
  refine Done.bind (m := forDown _ _ _) (outer_same height h (N - 1) (by omega) _ _ (hs junk)) ?_
  rintro H ⟨f, h1, hH⟩
  have := hH.rd (j := 0) (by omega) (by omega)
  obtain ⟨n1, n2, n3⟩ := hH.next (j := 0) (by omega) (by omega)
  show Done (Except.bind (H.rd ((0 : Nat) : Int)) _) _
  rw [this]
  show Done (Except.map _ (slopeOf _ a ((0 : Nat) : Int) _)) _
  rw [slopeOf_eq _ h (by omega) n2]
  refine ⟨_, rfl, ?_⟩
  unfold Horizon.hord Horizon.horizonC
  rw [h1]
  rfl

/-! ### A cell -/

/-- What `calc_maxus` needs of its arguments. -/
structure Args {K : Type} (nx ny : Int) (g : Grid K) : Prop where
  cells : nx * ny < 2147483648
  cells0 : -2147483648 ≤ nx * ny
  x : Vec g.x nx.toNat
  y : Vec g.y ny.toNat
  z : Vec g.z (nx * ny).toNat
  sx : Vec g.startX (nx * ny).toNat
  sy : Vec g.startY (nx * ny).toNat
  ex : Vec g.endX (nx * ny).toNat
  ey : Vec g.endY (nx * ny).toNat
  start : ∀ i : Nat, i < (nx * ny).toNat → ∃ sx sy, g.startX.val i = some sx ∧ g.startY.val i = some sy ∧ InGrid nx ny (sx, sy) ∧
    sx < 2147483648 ∧ sy < 2147483648
  finish : ∀ i : Nat, i < (nx * ny).toNat → ∀ ex ey, g.endX.val i = some ex → g.endY.val i = some ey →
    -2147483648 ≤ ex ∧ ex < 2147483648 ∧ -2147483648 ≤ ey ∧ ey < 2147483648

/-- The values of a part of a line as functions. -/
theorem Part.prof {K : Type} {a : Line K} {L : Nat} {u : List (Int × Int)} {nx : Int} {x y z : Buf K} (h : Part a L u nx x y z)
    (hL : u.length ≤ L) (fx fy fz : Nat → K)
    (hx : ∀ k c, u[k]? = some c → x.val c.1.toNat = some (fx k)) (hy : ∀ k c, u[k]? = some c → y.val c.2.toNat = some (fy k))
    (hz : ∀ k c, u[k]? = some c → z.val (c.2 * nx + c.1).toNat = some (fz k)) : Prof a u.length fx fy fz := by
  refine ⟨h.n, h.lx, h.ly, h.lz, by rw [h.sx]; exact hL, by rw [h.sy]; exact hL, by rw [h.sz]; exact hL, ?_, ?_, ?_⟩
  · intro k hk
    have hc := List.getElem?_eq_getElem hk
    rw [(h.vx k _ hc).1]; exact hx k _ hc
  · intro k hk
    have hc := List.getElem?_eq_getElem hk
    rw [(h.vy k _ hc).1]; exact hy k _ hc
  · intro k hk
    have hc := List.getElem?_eq_getElem hk
    rw [(h.vz k _ hc).1]; exact hz k _ hc

/-- The body of the loop, for any property of the value of the horizon search. -/
theorem done_cell {K R O : Type} (F : Ar K R O) {nx ny : Int} {g : Grid K} (hg : Args nx ny g) (junk : LineData)
    (V : Nat → O → Prop)
    (hV : ∀ i, i < (nx * ny).toNat → ∀ s e : Int × Int, g.startX.val i = some s.1 → g.startY.val i = some s.2 → g.endX.val i = some e.1 →
      g.endY.val i = some e.2 → InGrid nx ny s → ∀ u w, findLine nx ny s.1 s.2 e.1 e.2 junk = u ++ w → u ≠ [] → (∀ c ∈ u, InGrid nx ny c) →
      (∀ c ∈ w, ¬ InGrid nx ny c) → ∀ a, Part a (u ++ w).length u nx g.x g.y g.z → Done (hordMem F a) (V i))
    (s : Buf Int × Buf Int × Buf O) (hs : Holds s.1 s.2.1 []) (hm : s.2.2.live = true) (hms : (nx * ny).toNat ≤ s.2.2.size)
    (i : Nat) (hi : i < (nx * ny).toNat) :
    Done (cellMem F nx ny g junk s i) fun r => Holds r.1 r.2.1 [] ∧ r.2.2.live = true ∧ r.2.2.size = s.2.2.size ∧
      ∃ v, V i v ∧ ∀ k, r.2.2.val k = if k = i then some v else s.2.2.val k := by
  obtain ⟨sx, sy, e1, e2, hin, b1, b2⟩ := hg.start i hi
  obtain ⟨ex, e3⟩ := Option.isSome_iff_exists.1 (hg.ex.val i hi)
  obtain ⟨ey, e4⟩ := Option.isSome_iff_exists.1 (hg.ey.val i hi)
  obtain ⟨f1, f2, f3, f4⟩ := hg.finish i hi ex ey e3 e4
  have z1 := hg.sx.size
  have z2 := hg.sy.size
  have z3 := hg.ex.size
  have z4 := hg.ey.size
  unfold cellMem
  rw [rd_ok hg.sx.live (by omega) (by omega) (by rw [Int.toNat_natCast]; exact e1)]
  show Done (Except.bind (int32 sx) _) _
  rw [int32_ok (by have := hin.1; simp only at this; omega) b1]
  show Done (Except.bind (g.startY.rd _) _) _
  rw [rd_ok hg.sy.live (by omega) (by omega) (by rw [Int.toNat_natCast]; exact e2)]
  show Done (Except.bind (int32 sy) _) _
  rw [int32_ok (by have := hin.2.2.1; simp only at this; omega) b2]
  show Done (Except.bind (g.endX.rd _) _) _
  rw [rd_ok hg.ex.live (by omega) (by omega) (by rw [Int.toNat_natCast]; exact e3)]
  show Done (Except.bind (int32 ex) _) _
  rw [int32_ok f1 f2]
  show Done (Except.bind (g.endY.rd _) _) _
  rw [rd_ok hg.ey.live (by omega) (by omega) (by rw [Int.toNat_natCast]; exact e4)]
  show Done (Except.bind (int32 ey) _) _
  rw [int32_ok f3 f4]
  refine Done.bind (m := findLineMem _ _ _ _ _ _ _ _ _) (done_findLine nx ny sx sy ex ey junk s.1 s.2.1 hs) ?_
  rintro ⟨xs, ys, n⟩ ⟨hh, hn⟩
  simp only at hh hn ⊢
  obtain ⟨u', w, hp, hu', hw⟩ := findLine_split nx ny (sx, sy) (ex, ey) junk hin
  have hu : ∀ c ∈ (sx, sy) :: u', InGrid nx ny c := by
    intro c hc
    rcases List.mem_cons.1 hc with rfl | hc
    · exact hin
    · exact hu' c hc
  have hlen := findLine_length nx ny sx sy ex ey junk
  simp only at hp
  rw [← List.cons_append] at hp
  have hV' := hV i hi (sx, sy) (ex, ey) e1 e2 e3 e4 hin ((sx, sy) :: u') w hp (by simp) hu hw
  rw [hp] at hh hn hlen
  rw [hn]
  refine Done.bind (done_profile hh hg.x hg.y hg.z hg.cells hlen hu hw) fun a ha => ?_
  refine Done.bind (hV' a ha) fun v hv => ?_
  rw [wr_ok hm (by omega) (by omega)]
  exact ⟨_, rfl, ⟨hh.lx, hh.ly, hh.sx, hh.sy, by simp, by simp⟩, hm, rfl, v, hv, fun k => by simp⟩

theorem done_maxus {K R O : Type} (F : Ar K R O) {nx ny : Int} {g : Grid K} (hg : Args nx ny g) (junk : LineData)
    (V : Nat → O → Prop)
    (hV : ∀ i, i < (nx * ny).toNat → ∀ s e : Int × Int, g.startX.val i = some s.1 → g.startY.val i = some s.2 → g.endX.val i = some e.1 →
      g.endY.val i = some e.2 → InGrid nx ny s → ∀ u w, findLine nx ny s.1 s.2 e.1 e.2 junk = u ++ w → u ≠ [] → (∀ c ∈ u, InGrid nx ny c) →
      (∀ c ∈ w, ¬ InGrid nx ny c) → ∀ a, Part a (u ++ w).length u nx g.x g.y g.z → Done (hordMem F a) (V i))
    (m : Buf O) (hm : m.live = true) (hms : (nx * ny).toNat ≤ m.size) :
    Done (maxusMem F nx ny g junk m) fun r => r.live = true ∧ r.size = m.size ∧
      (∀ i, i < (nx * ny).toNat → ∃ v, r.val i = some v ∧ V i v) ∧ ∀ i, (nx * ny).toNat ≤ i → r.val i = m.val i := by
  unfold maxusMem
  rw [int32_ok hg.cells0 hg.cells]
  refine Done.map (m := forUp _ _ _ _) (done_forUp (nx * ny).toNat (cellMem F nx ny g junk) _ (fun i (s : Buf Int × Buf Int × Buf O) =>
    Holds s.1 s.2.1 [] ∧ s.2.2.live = true ∧ s.2.2.size = m.size ∧ (∀ k, k < i → ∃ v, s.2.2.val k = some v ∧ V k v) ∧
    ∀ k, i ≤ k → s.2.2.val k = m.val k) ?_ ?_) ?_
  · exact ⟨⟨rfl, rfl, rfl, rfl, by simp, by simp⟩, hm, rfl, by simp, fun _ _ => rfl⟩
  · rintro i s hi ⟨h1, h2, h3, h4, h5⟩
    refine (done_cell F hg junk V hV s h1 h2 (by omega) i hi).mono ?_
    rintro r ⟨g1, g2, g3, v, hv, g4⟩
    refine ⟨g1, g2, by omega, ?_, ?_⟩
    · intro k hk
      rw [g4]
      by_cases e : k = i
      · rw [if_pos e]; subst e; exact ⟨v, rfl, hv⟩
      · rw [if_neg e]; exact h4 k (by omega)
    · intro k hk
      rw [g4, if_neg (by omega)]
      exact h5 k (by omega)
  · rintro s ⟨h1, h2, h3, h4, h5⟩
    exact ⟨h2, h3, h4, h5⟩

/-- A vector as a function of the index; what is not written counts as zero. -/
noncomputable def fn (b : Buf ℝ) (i : Int) : ℝ := (b.val i.toNat).getD 0

end Verif.MaxusMem
