import Verif.MaxusMem
import Verif.BresAny
import Verif.HorizonProps

/-!
Helper lemmas for `MaxusMemProps`.
-/

namespace Verif.MaxusMem
open Verif.CMem Verif.Bres
set_option linter.unusedVariables false

/-! ### Computations that return -/

/-- The computation returns, and the result has a property. -/
def Done {α : Type} (m : C α) (Q : α → Prop) : Prop := ∃ a, m = .ok a ∧ Q a

theorem Done.bind {α β : Type} {m : C α} {f : α → C β} {Q : α → Prop} {R : β → Prop} (h : Done m Q)
    (hf : ∀ a, Q a → Done (f a) R) : Done (m.bind f) R := by
  obtain ⟨a, rfl, ha⟩ := h
  exact hf a ha

theorem Done.map {α β : Type} {m : C α} {f : α → β} {Q : α → Prop} {R : β → Prop} (h : Done m Q)
    (hf : ∀ a, Q a → R (f a)) : Done (m.map f) R := by
  obtain ⟨a, rfl, ha⟩ := h
  exact ⟨_, rfl, hf a ha⟩

theorem Done.mono {α : Type} {m : C α} {Q R : α → Prop} (h : Done m Q) (hf : ∀ a, Q a → R a) : Done m R := by
  obtain ⟨a, rfl, ha⟩ := h
  exact ⟨_, rfl, hf a ha⟩

theorem done_ok {α : Type} {a : α} {Q : α → Prop} (h : Q a) : Done (.ok a) Q := ⟨a, rfl, h⟩

theorem done_forUp {S : Type} (hi : Nat) (f : S → Nat → C S) (s : S) (I : Nat → S → Prop) (h0 : I 0 s)
    (hs : ∀ k s, k < hi → I k s → Done (f s k) (I (k + 1))) : Done (forUp 0 hi f s) (I hi) := by
  unfold forUp
  have key : ∀ n lo s, lo + n = hi → I lo s → Done ((List.range' lo n).foldlM f s) (I hi) := by
    intro n
    induction n with
    | zero => intro lo s e h; rw [Nat.add_zero] at e; subst e; exact done_ok h
    | succ n ih =>
      intro lo s e h
      rw [List.range'_succ, List.foldlM_cons]
      exact Done.bind (hs lo s (by omega) h) fun t ht => ih (lo + 1) t (by omega) ht
  exact key (hi - 0) 0 s (by omega) h0

theorem done_forDown {S : Type} (n : Nat) (f : S → Nat → C S) (s : S) (I : Nat → S → Prop) (h0 : I n s)
    (hs : ∀ k s, k < n → I (k + 1) s → Done (f s k) (I k)) : Done (forDown n f s) (I 0) := by
  induction n generalizing s with
  | zero => exact done_ok h0
  | succ n ih => exact Done.bind (hs n s (by omega) h0) fun t ht => ih t ht fun k u h1 => hs k u (by omega)

theorem rd_ok {α : Type} {b : Buf α} {i : Int} {v : α} (hl : b.live = true) (h0 : 0 ≤ i) (h1 : i < b.size)
    (hv : b.val i.toNat = some v) : b.rd i = .ok v := by
  unfold Buf.rd
  rw [if_neg (by rw [hl]; decide), if_neg (by omega), hv]

theorem wr_ok {α : Type} {b : Buf α} {i : Int} {v : α} (hl : b.live = true) (h0 : 0 ≤ i) (h1 : i < b.size) :
    b.wr i v = .ok { b with val := fun k => if k = i.toNat then some v else b.val k } := by
  unfold Buf.wr
  rw [if_neg (by rw [hl]; decide), if_neg (by omega)]

theorem int32_ok {n : Int} (h1 : -2147483648 ≤ n) (h2 : n < 2147483648) : int32 n = .ok n := by
  have h1' : (-2 ^ 31 : Int) ≤ n := by omega
  have h2' : n < 2 ^ 31 := by omega
  unfold int32
  rw [if_pos ⟨h1', h2'⟩]

/-! ### The line -/

/-- The arrays of coordinates hold a list of cells. -/
structure Holds (xs ys : Buf Int) (p : List (Int × Int)) : Prop where
  lx : xs.live = true
  ly : ys.live = true
  sx : xs.size = maxSize
  sy : ys.size = maxSize
  vx : ∀ k c, p[k]? = some c → xs.val k = some c.1
  vy : ∀ k c, p[k]? = some c → ys.val k = some c.2

theorem Holds.snoc {xs ys : Buf Int} {p : List (Int × Int)} (h : Holds xs ys p) (hp : p.length < maxSize) (c : Int × Int) :
    Holds { xs with val := fun k => if k = ((p.length : Nat) : Int).toNat then some c.1 else xs.val k }
      { ys with val := fun k => if k = ((p.length : Nat) : Int).toNat then some c.2 else ys.val k } (p ++ [c]) := by
  have hget : ∀ k d, (p ++ [c])[k]? = some d → (k = p.length ∧ d = c) ∨ (k ≠ p.length ∧ p[k]? = some d) := by
    intro k d hk
    rcases Nat.lt_trichotomy k p.length with g | g | g
    · rw [List.getElem?_append_left g] at hk
      exact Or.inr ⟨by omega, hk⟩
    · subst g
      simp at hk
      exact Or.inl ⟨rfl, hk.symm⟩
    · rw [List.getElem?_eq_none (by simp; omega)] at hk
      cases hk
  refine ⟨h.lx, h.ly, h.sx, h.sy, ?_, ?_⟩
  · intro k d hk
    simp only [Int.toNat_natCast]
    rcases hget k d hk with ⟨e, rfl⟩ | ⟨e, hk⟩
    · rw [if_pos e]
    · rw [if_neg e]; exact h.vx k d hk
  · intro k d hk
    simp only [Int.toNat_natCast]
    rcases hget k d hk with ⟨e, rfl⟩ | ⟨e, hk⟩
    · rw [if_pos e]
    · rw [if_neg e]; exact h.vy k d hk

theorem done_walk (nx ny sx sy ex ey : Int) (fuel : Nat) (w : Walk) (p : List (Int × Int)) (hN : w.N = p.length)
    (h : Holds w.xs w.ys p) (hp : p.length ≤ maxSize) (hf : maxSize < fuel + w.N) :
    Done (walk nx ny sx sy ex ey fuel w) fun r =>
      Holds r.xs r.ys (p ++ lineLoop nx ny sx sy ex ey (maxSize - p.length) w.t) ∧
      r.N = (p ++ lineLoop nx ny sx sy ex ey (maxSize - p.length) w.t).length := by
  induction fuel generalizing w p with
  | zero => omega
  | succ fuel ih =>
    unfold walk
    by_cases hlt : p.length < maxSize
    · obtain ⟨m, hm⟩ : ∃ m, maxSize - p.length = m + 1 := ⟨maxSize - p.length - 1, by omega⟩
      rw [hm]
      unfold lineLoop
      by_cases h1 : w.t.x ≠ ex ∨ w.t.y ≠ ey
      · rw [if_pos ⟨h1, by omega⟩, if_pos h1]
        by_cases h2 : w.t.x > nx ∨ w.t.x < 0 ∨ w.t.y > ny ∨ w.t.y < 0
        · rw [if_pos h2, if_pos h2, List.append_nil]
          exact done_ok ⟨h, hN⟩
        · rw [if_neg h2, if_neg h2]
          simp only
          generalize nextCell (short sx) (short sy) (short ex) (short ey) w.t = t
          rw [wr_ok h.lx (by omega) (by rw [h.sx]; omega)]
          show Done (Except.bind (w.ys.wr _ _) _) _
          rw [wr_ok h.ly (by omega) (by rw [h.sy]; omega), hN]
          have := ih ⟨t, _, _, p.length + 1⟩ (p ++ [(t.x, t.y)]) (by simp) (h.snoc hlt (t.x, t.y)) (by simp; omega)
            (by show maxSize < fuel + (p.length + 1); omega)
          rw [List.length_append, List.length_singleton, show maxSize - (p.length + 1) = m by omega, List.append_assoc,
            List.singleton_append] at this
          exact this
      · rw [if_neg (fun g => h1 g.1), if_neg h1, List.append_nil]
        exact done_ok ⟨h, hN⟩
    · rw [show maxSize - p.length = 0 by omega, if_neg (by omega)]
      simp only [lineLoop, List.append_nil]
      exact done_ok ⟨h, hN⟩

theorem done_findLine (nx ny sx sy ex ey : Int) (junk : LineData) (xs ys : Buf Int) (h : Holds xs ys []) :
    Done (findLineMem nx ny sx sy ex ey junk xs ys) fun r =>
      Holds r.1 r.2.1 (findLine nx ny sx sy ex ey junk) ∧ r.2.2 = (findLine nx ny sx sy ex ey junk).length := by
  unfold findLineMem
  rw [wr_ok h.lx (by omega) (by rw [h.sx]; decide)]
  show Done (Except.bind (ys.wr _ _) _) _
  rw [wr_ok h.ly (by omega) (by rw [h.sy]; decide)]
  show Done (Except.map _ _) _
  have h1 := h.snoc (by decide) (sx, sy)
  have := done_walk nx ny sx sy ex ey (maxSize + 1) ⟨{ x := short sx, y := short sy, l := { junk with slopeType := 0 } }, _, _, 1⟩
    ([] ++ [(sx, sy)]) rfl h1 (by simp [maxSize]) (by show maxSize < maxSize + 1 + 1; omega)
  exact Done.map this fun r hr => hr

theorem findLine_length (nx ny sx sy ex ey : Int) (junk : LineData) : (findLine nx ny sx sy ex ey junk).length ≤ maxSize := by
  unfold findLine
  have := lineLoop_length nx ny sx sy ex ey (maxSize - 1) { x := short sx, y := short sy, l := { junk with slopeType := 0 } }
  rw [List.length_cons]
  have : maxSize = 500 := rfl
  omega

/-! ### The profile -/

/-- The first `n` elements are there. -/
structure Vec {K : Type} (b : Buf K) (n : Nat) : Prop where
  live : b.live = true
  size : n ≤ b.size
  val : ∀ k, k < n → (b.val k).isSome

theorem Vec.rd {K : Type} {b : Buf K} {n : Nat} (h : Vec b n) {i : Int} (h0 : 0 ≤ i) (h1 : i < n) :
    ∃ v, b.rd i = .ok v ∧ b.val i.toNat = some v := by
  obtain ⟨v, hv⟩ := Option.isSome_iff_exists.1 (h.val i.toNat (by omega))
  have := h.size
  exact ⟨v, rd_ok h.live h0 (by omega) hv, hv⟩

/-- Arrays for a line of at most `L` cells, with the first cells `u` in them. -/
structure Part {K : Type} (a : Line K) (L : Nat) (u : List (Int × Int)) (nx : Int) (x y z : Buf K) : Prop where
  n : a.n = u.length
  lx : a.xl.live = true
  ly : a.yl.live = true
  lz : a.elev.live = true
  sx : a.xl.size = L
  sy : a.yl.size = L
  sz : a.elev.size = L
  vx : ∀ k c, u[k]? = some c → a.xl.val k = x.val c.1.toNat ∧ (a.xl.val k).isSome
  vy : ∀ k c, u[k]? = some c → a.yl.val k = y.val c.2.toNat ∧ (a.yl.val k).isSome
  vz : ∀ k c, u[k]? = some c → a.elev.val k = z.val (c.2 * nx + c.1).toNat ∧ (a.elev.val k).isSome

theorem index_bound {nx ny : Int} {c : Int × Int} (hc : InGrid nx ny c) :
    0 ≤ c.2 * nx ∧ 0 ≤ c.2 * nx + c.1 ∧ c.2 * nx + c.1 < nx * ny ∧ c.2 * nx < nx * ny := by
  obtain ⟨h1, h2, h3, h4⟩ := hc
  have : 0 ≤ c.2 * nx := Int.mul_nonneg h3 (by omega)
  have h5 : c.2 * nx ≤ (ny - 1) * nx := Int.mul_le_mul_of_nonneg_right (by omega) (by omega)
  have h6 : (ny - 1) * nx = nx * ny - nx := by ring
  omega

theorem getElem?_snoc {α : Type} {p : List α} {c d : α} {k : Nat} (hk : (p ++ [c])[k]? = some d) :
    (k = p.length ∧ d = c) ∨ (k ≠ p.length ∧ p[k]? = some d) := by
  rcases Nat.lt_trichotomy k p.length with g | g | g
  · rw [List.getElem?_append_left g] at hk
    exact Or.inr ⟨by omega, hk⟩
  · subst g
    simp at hk
    exact Or.inl ⟨rfl, hk.symm⟩
  · rw [List.getElem?_eq_none (by simp; omega)] at hk
    cases hk

theorem done_takeCell_in {K : Type} {nx ny : Int} {x y z : Buf K} {xs ys : Buf Int} {p : List (Int × Int)} (h : Holds xs ys p)
    (hx : Vec x nx.toNat) (hy : Vec y ny.toNat) (hz : Vec z (nx * ny).toNat) (hb : nx * ny < 2147483648) {a : Line K} {L : Nat}
    {u : List (Int × Int)} (ha : Part a L u nx x y z) (hL : u.length < L) (hp : p.length ≤ maxSize) {c : Int × Int}
    (hc : p[u.length]? = some c) (hin : InGrid nx ny c) :
    Done (takeCell nx ny x y z xs ys a u.length) fun b => Part b L (u ++ [c]) nx x y z := by
  have hlt := (List.getElem?_eq_some_iff.1 hc).1
  obtain ⟨b1, b2, b3, b4⟩ := index_bound hin
  obtain ⟨i1, i2, i3, i4⟩ := hin
  unfold takeCell
  rw [rd_ok h.lx (by omega) (by rw [h.sx]; omega) (by rw [Int.toNat_natCast]; exact h.vx _ c hc)]
  show Done (Except.bind (ys.rd _) _) _
  rw [rd_ok h.ly (by omega) (by rw [h.sy]; omega) (by rw [Int.toNat_natCast]; exact h.vy _ c hc)]
  show Done (ite _ _ _) _
  rw [if_pos (by omega)]
  obtain ⟨v1, e1, w1⟩ := hx.rd i1 (by omega)
  obtain ⟨v2, e2, w2⟩ := hy.rd i3 (by omega)
  obtain ⟨v3, e3, w3⟩ := hz.rd b2 (by omega)
  rw [e1]
  show Done (Except.bind (a.xl.wr _ _) _) _
  rw [wr_ok ha.lx (by omega) (by rw [ha.sx]; omega)]
  show Done (Except.bind (y.rd _) _) _
  rw [e2]
  show Done (Except.bind (a.yl.wr _ _) _) _
  rw [wr_ok ha.ly (by omega) (by rw [ha.sy]; omega)]
  show Done (Except.bind (int32 _) _) _
  rw [int32_ok (by omega) (by omega)]
  show Done (Except.bind (int32 _) _) _
  rw [int32_ok (by omega) (by omega)]
  show Done (Except.bind (z.rd _) _) _
  rw [e3]
  show Done (Except.map _ (a.elev.wr _ _)) _
  rw [wr_ok ha.lz (by omega) (by rw [ha.sz]; omega)]
  refine ⟨_, rfl, ⟨?_, ha.lx, ha.ly, ha.lz, ha.sx, ha.sy, ha.sz, ?_, ?_, ?_⟩⟩
  · show a.n + 1 = _
    rw [ha.n]; simp
  · intro k d hk
    simp only [Int.toNat_natCast]
    rcases getElem?_snoc hk with ⟨e, rfl⟩ | ⟨e, hk⟩
    · rw [if_pos e, w1]; exact ⟨rfl, rfl⟩
    · rw [if_neg e]; exact ha.vx k d hk
  · intro k d hk
    simp only [Int.toNat_natCast]
    rcases getElem?_snoc hk with ⟨e, rfl⟩ | ⟨e, hk⟩
    · rw [if_pos e, w2]; exact ⟨rfl, rfl⟩
    · rw [if_neg e]; exact ha.vy k d hk
  · intro k d hk
    simp only [Int.toNat_natCast]
    rcases getElem?_snoc hk with ⟨e, rfl⟩ | ⟨e, hk⟩
    · rw [if_pos e, w3]; exact ⟨rfl, rfl⟩
    · rw [if_neg e]; exact ha.vz k d hk

theorem done_takeCell_out {K : Type} {nx ny : Int} {x y z : Buf K} {xs ys : Buf Int} {p : List (Int × Int)} (h : Holds xs ys p)
    {a : Line K} (hp : p.length ≤ maxSize) {j : Nat} {c : Int × Int} (hc : p[j]? = some c) (hout : ¬ InGrid nx ny c) :
    Done (takeCell nx ny x y z xs ys a j) fun b => b = a := by
  have hlt := (List.getElem?_eq_some_iff.1 hc).1
  unfold takeCell
  rw [rd_ok h.lx (by omega) (by rw [h.sx]; omega) (by rw [Int.toNat_natCast]; exact h.vx _ c hc)]
  show Done (Except.bind (ys.rd _) _) _
  rw [rd_ok h.ly (by omega) (by rw [h.sy]; omega) (by rw [Int.toNat_natCast]; exact h.vy _ c hc)]
  show Done (ite _ _ _) _
  rw [if_neg (by unfold InGrid at hout; omega)]
  exact done_ok rfl

theorem done_profile {K : Type} {nx ny : Int} {x y z : Buf K} {xs ys : Buf Int} {u w : List (Int × Int)} (h : Holds xs ys (u ++ w))
    (hx : Vec x nx.toNat) (hy : Vec y ny.toNat) (hz : Vec z (nx * ny).toNat) (hb : nx * ny < 2147483648)
    (hp : (u ++ w).length ≤ maxSize) (hu : ∀ c ∈ u, InGrid nx ny c) (hw : ∀ c ∈ w, ¬ InGrid nx ny c) :
    Done (forUp 0 (u ++ w).length (takeCell nx ny x y z xs ys)
      ⟨local_ (u ++ w).length, local_ (u ++ w).length, local_ (u ++ w).length, 0⟩) fun a => Part a (u ++ w).length u nx x y z := by
  refine (done_forUp _ _ _ (fun j a => Part a (u ++ w).length (u.take j) nx x y z) ?_ ?_).mono ?_
  · exact ⟨rfl, rfl, rfl, rfl, rfl, rfl, rfl, by simp, by simp, by simp⟩
  · intro j a hj ha
    by_cases hju : j < u.length
    · have hlen : (u.take j).length = j := by simp; omega
      have hc : (u ++ w)[(u.take j).length]? = some u[j] := by
        rw [hlen, List.getElem?_append_left hju, List.getElem?_eq_getElem hju]
      have := done_takeCell_in h hx hy hz hb ha (by omega) hp hc (hu _ (List.getElem_mem hju))
      rw [hlen] at this
      rw [List.take_add_one, List.getElem?_eq_getElem hju]
      exact this
    · have hj' : j - u.length < w.length := by simp at hj; omega
      have hc : (u ++ w)[j]? = some w[j - u.length] := by
        rw [List.getElem?_append_right (by omega), List.getElem?_eq_getElem hj']
      refine (done_takeCell_out h hp hc (hw _ (List.getElem_mem hj'))).mono ?_
      rintro b rfl
      rw [List.take_of_length_le (by omega)] at ha ⊢
      exact ha
  · intro a ha
    rw [List.take_of_length_le (by simp)] at ha
    exact ha

/-! ### The horizon -/

/-- The arrays hold a profile of `N` points. -/
structure Prof {K : Type} (a : Line K) (N : Nat) (x y z : Nat → K) : Prop where
  n : a.n = N
  lx : a.xl.live = true
  ly : a.yl.live = true
  lz : a.elev.live = true
  sx : N ≤ a.xl.size
  sy : N ≤ a.yl.size
  sz : N ≤ a.elev.size
  vx : ∀ k, k < N → a.xl.val k = some (x k)
  vy : ∀ k, k < N → a.yl.val k = some (y k)
  vz : ∀ k, k < N → a.elev.val k = some (z k)

theorem slopeOf_eq {K R O : Type} (F : Ar K R O) {a : Line K} {N : Nat} {x y z : Nat → K} (h : Prof a N x y z) {i j : Nat}
    (hi : i < N) (hj : j < N) : slopeOf F a i j = .ok (F.slope (x i) (y i) (z i) (x j) (y j) (z j)) := by
  obtain ⟨_, lx, ly, lz, sx, sy, sz, vx, vy, vz⟩ := h
  unfold slopeOf
  rw [rd_ok lx (by omega) (by omega) (by rw [Int.toNat_natCast]; exact vx i hi),
    rd_ok ly (by omega) (by omega) (by rw [Int.toNat_natCast]; exact vy i hi),
    rd_ok lz (by omega) (by omega) (by rw [Int.toNat_natCast]; exact vz i hi),
    rd_ok lx (by omega) (by omega) (by rw [Int.toNat_natCast]; exact vx j hj),
    rd_ok ly (by omega) (by omega) (by rw [Int.toNat_natCast]; exact vy j hj),
    rd_ok lz (by omega) (by omega) (by rw [Int.toNat_natCast]; exact vz j hj)]
  rfl

/-- The array `H` from the index `i` on. -/
structure HBuf (H : Buf Int) (N i : Nat) (f : Nat → Nat) : Prop where
  live : H.live = true
  size : H.size = N
  val : ∀ k, i ≤ k → k < N → H.val k = some (f k : Int)
  fwd : Horizon.Forward N i f

theorem HBuf.rd {H : Buf Int} {N i : Nat} {f : Nat → Nat} (h : HBuf H N i f) {j : Nat} (h1 : i ≤ j) (h2 : j < N) :
    H.rd j = .ok (f j : Int) :=
  rd_ok h.live (by omega) (by rw [h.size]; omega) (by rw [Int.toNat_natCast]; exact h.val j h1 h2)

theorem HBuf.next {H : Buf Int} {N i : Nat} {f : Nat → Nat} (h : HBuf H N i f) {j : Nat} (h1 : i ≤ j) (h2 : j < N) :
    j ≤ f j ∧ f j < N ∧ (j ≠ N - 1 → j < f j) := by
  by_cases e : j = N - 1
  · have := h.fwd.2
    rw [← e] at this
    omega
  · have := h.fwd.1 j h1 (by omega)
    omega

theorem done_search {K R O : Type} (F : Ar K R O) {a : Line K} {N : Nat} {x y z : Nat → K} (h : Prof a N x y z) {H : Buf Int}
    {i : Nat} {f : Nat → Nat} (hH : HBuf H N (i + 1) f) (fuel : Nat) (j : Nat) (hij : i < j) (hj : j < N) (hf : N ≤ fuel + j) :
    Done (search F a N H i fuel j) fun v => ∃ m : Nat, v = m ∧ i < m ∧ m < N := by
  induction fuel generalizing j with
  | zero => omega
  | succ fuel ih =>
    obtain ⟨n1, n2, n3⟩ := hH.next (j := j) (by omega) hj
    unfold search
    rw [slopeOf_eq F h (by omega) hj]
    show Done (Except.bind (H.rd _) _) _
    rw [hH.rd (by omega) hj]
    show Done (Except.bind (slopeOf F a _ _) _) _
    rw [slopeOf_eq F h hj n2]
    show Done (ite _ _ _) _
    split
    · split
      · exact done_ok ⟨j, rfl, hij, hj⟩
      · rename_i hne
        have : j ≠ N - 1 := by omega
        have := n3 this
        exact ih (f j) (by omega) n2 (by omega)
    · split
      · exact done_ok ⟨j, rfl, hij, hj⟩
      · exact done_ok ⟨f j, rfl, by omega, n2⟩

theorem HBuf.set {H : Buf Int} {N i : Nat} {f : Nat → Nat} (h : HBuf H N (i + 1) f) (hi : i + 1 < N) (m : Nat) (h1 : i < m) (h2 : m < N) :
    H.wr i (m : Int) = .ok { H with val := fun k => if k = ((i : Nat) : Int).toNat then some (m : Int) else H.val k } ∧
    HBuf { H with val := fun k => if k = ((i : Nat) : Int).toNat then some (m : Int) else H.val k } N i
      (fun k => if k = i then m else f k) := by
  refine ⟨wr_ok h.live (by omega) (by rw [h.size]; omega), h.live, h.size, ?_, ?_, ?_⟩
  · intro k hk hk'
    simp only [Int.toNat_natCast]
    by_cases e : k = i
    · rw [if_pos e, if_pos e]
    · rw [if_neg e, if_neg e]; exact h.val k (by omega) hk'
  · intro k hk hk'
    simp only
    by_cases e : k = i
    · rw [if_pos e]; omega
    · rw [if_neg e]; exact h.fwd.1 k (by omega) hk'
  · simp only
    rw [if_neg (by omega)]
    exact h.fwd.2

theorem hbuf_start {N : Nat} (hN : 1 ≤ N) : (local_ N : Buf Int).wr ((N : Int) - 1) ((N : Int) - 1) =
    .ok { (local_ N : Buf Int) with val := fun k => if k = ((N : Int) - 1).toNat then some ((N : Int) - 1) else none } ∧
    ∀ junk : Nat → Nat, HBuf { (local_ N : Buf Int) with
      val := fun k => if k = ((N : Int) - 1).toNat then some ((N : Int) - 1) else none } N (N - 1) (Horizon.initH N junk) := by
  refine ⟨wr_ok rfl (by omega) (by show (N : Int) - 1 < N; omega), fun junk => ⟨rfl, rfl, ?_, ?_, ?_⟩⟩
  · intro k hk hk'
    have e : k = N - 1 := by omega
    simp only [Horizon.initH]
    rw [if_pos (by omega), if_pos e]
    congr 1
    omega
  · intro j hj hj'; omega
  · simp [Horizon.initH]

theorem done_hord {K R O : Type} (F : Ar K R O) {a : Line K} {N : Nat} {x y z : Nat → K} (h : Prof a N x y z) (hN : 1 ≤ N) :
    Done (hordMem F a) fun _ => True := by
  unfold hordMem
  rw [h.n]
  obtain ⟨e, hs⟩ := hbuf_start hN
  rw [e]
  refine Done.bind (m := forDown _ _ _) (Q := fun H => ∃ f, HBuf H N 0 f)
    (done_forDown (N - 1) _ _ (fun i H => ∃ f, HBuf H N i f) ⟨_, hs (fun _ => 0)⟩ ?_) ?_
  · rintro i H hi ⟨f, hH⟩
    refine Done.bind (done_search F h hH N (i + 1) (by omega) (by omega) (by omega)) ?_
    rintro v ⟨m, rfl, h1, h2⟩
    obtain ⟨e1, e2⟩ := hH.set (by omega) m h1 h2
    exact ⟨_, e1, _, e2⟩
  · rintro H ⟨f, hH⟩
    have := hH.rd (j := 0) (by omega) (by omega)
    obtain ⟨n1, n2, n3⟩ := hH.next (j := 0) (by omega) (by omega)
    show Done (Except.bind (H.rd ((0 : Nat) : Int)) _) _
    rw [this]
    show Done (Except.map _ (slopeOf F a ((0 : Nat) : Int) _)) _
    rw [slopeOf_eq F h (by omega) n2]
    exact ⟨_, rfl, trivial⟩

end Verif.MaxusMem
