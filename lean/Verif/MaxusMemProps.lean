import Verif.MaxusMemRef
import Verif.Window

/-!
C119: the memory of the upwind-slope code.
-/

namespace Verif.MaxusMem
open Verif.CMem Verif.Bres
set_option linter.unusedVariables false

/-! ### Specification -/

/-- The first `n` elements of an allocated array are written. -/
def Filled {α : Type} (b : Buf α) (n : Nat) : Prop := b.live = true ∧ n ≤ b.size ∧ ∀ k, k < n → ∃ v, b.val k = some v

/-- A whole number that fits in a C `int`. -/
def IsInt (n : Int) : Prop := -2147483648 ≤ n ∧ n ≤ 2147483647

/-- The arguments: a grid of `nx` by `ny` cells with fewer than 2^31 cells, arrays of the lengths that go with it, start cells in the
grid, end cells anywhere. -/
structure Given {K : Type} (nx ny : Nat) (g : Grid K) : Prop where
  cells : IsInt (nx * ny)
  x : Filled g.x nx
  y : Filled g.y ny
  z : Filled g.z (nx * ny)
  startX : Filled g.startX (nx * ny)
  startY : Filled g.startY (nx * ny)
  endX : Filled g.endX (nx * ny)
  endY : Filled g.endY (nx * ny)
  inside : ∀ i sx sy, i < nx * ny → g.startX.val i = some sx → g.startY.val i = some sy → 0 ≤ sx ∧ sx < nx ∧ 0 ≤ sy ∧ sy < ny
  ends : ∀ i ex ey, i < nx * ny → g.endX.val i = some ex → g.endY.val i = some ey → IsInt ex ∧ IsInt ey

theorem Given.args {K : Type} {nx ny : Nat} {g : Grid K} (h : Given nx ny g) : Args nx ny g := by
  have e : ((nx : Int) * ny).toNat = nx * ny := by rw [← Int.natCast_mul, Int.toNat_natCast]
  have c := h.cells
  unfold IsInt at c
  have vec : ∀ {α : Type} {b : Buf α} {n : Nat}, Filled b n → Vec b n := fun ⟨h1, h2, h3⟩ =>
    ⟨h1, h2, fun k hk => by obtain ⟨v, hv⟩ := h3 k hk; rw [hv]; rfl⟩
  refine ⟨by omega, by omega, vec h.x, vec h.y, ?_, ?_, ?_, ?_, ?_, ?_, ?_⟩
  · rw [e]; exact vec h.z
  · rw [e]; exact vec h.startX
  · rw [e]; exact vec h.startY
  · rw [e]; exact vec h.endX
  · rw [e]; exact vec h.endY
  · intro i hi
    rw [e] at hi
    obtain ⟨sx, e1⟩ := h.startX.2.2 i hi
    obtain ⟨sy, e2⟩ := h.startY.2.2 i hi
    obtain ⟨h1, h2, h3, h4⟩ := h.inside i sx sy hi e1 e2
    have b1 : (nx : Int) ≤ nx * ny := by
      have : (nx : Int) * 1 ≤ nx * ny := Int.mul_le_mul_of_nonneg_left (by omega) (by omega)
      omega
    have b2 : (ny : Int) ≤ nx * ny := by
      have : 1 * (ny : Int) ≤ nx * ny := Int.mul_le_mul_of_nonneg_right (by omega) (by omega)
      omega
    exact ⟨sx, sy, e1, e2, ⟨h1, h2, h3, h4⟩, by omega, by omega⟩
  · intro i hi ex ey e1 e2
    rw [e] at hi
    have := h.ends i ex ey hi e1 e2
    unfold IsInt at this
    omega

/-! ### C119 -/

/-- Whatever the arithmetic does (rounding, NaN, even a comparison without any order), the call returns: no array is left, no element is read
before it is written, no `int` overflows, the loops end. Every cell of the result is written and nothing else. -/
theorem C119_defined {K R O : Type} (F : Ar K R O) (nx ny : Nat) (g : Grid K) (h : Given nx ny g) (junk : LineData) (m : Buf O)
    (hm : m.live = true) (hms : nx * ny ≤ m.size) :
    ∃ r, maxusMem F nx ny g junk m = .ok r ∧ r.live = true ∧ r.size = m.size ∧ (∀ i, i < nx * ny → ∃ v, r.val i = some v) ∧
      ∀ i, nx * ny ≤ i → r.val i = m.val i := by
  have e : ((nx : Int) * ny).toNat = nx * ny := by rw [← Int.natCast_mul, Int.toNat_natCast]
  have hg := h.args
  have := done_maxus F hg junk (fun _ _ => True) (by
    intro i hi s t _ _ _ _ hs u w hp hu hin hout a ha
    obtain ⟨c, hc⟩ := List.exists_mem_of_ne_nil u hu
    have hlen : 1 ≤ u.length := List.length_pos_iff.2 hu
    have h0 := List.getElem?_eq_getElem (show 0 < u.length by omega)
    obtain ⟨x0, _⟩ := Option.isSome_iff_exists.1 (ha.vx 0 _ h0).2
    have some_of : ∀ {b : Buf K} {k}, (b.val k).isSome → b.val k = some ((b.val k).getD x0) := by
      intro b k hk
      obtain ⟨v, hv⟩ := Option.isSome_iff_exists.1 hk
      rw [hv]; rfl
    refine done_hord F (ha.prof (by simp) (fun k => (a.xl.val k).getD x0) (fun k => (a.yl.val k).getD x0)
      (fun k => (a.elev.val k).getD x0) ?_ ?_ ?_) hlen
    · intro k c hc; rw [← (ha.vx k c hc).1]; exact some_of (ha.vx k c hc).2
    · intro k c hc; rw [← (ha.vy k c hc).1]; exact some_of (ha.vy k c hc).2
    · intro k c hc; rw [← (ha.vz k c hc).1]; exact some_of (ha.vz k c hc).2) m hm (by rw [e]; exact hms)
  obtain ⟨r, h1, h2, h3, h4, h5⟩ := this
  rw [e] at h4 h5
  exact ⟨r, h1, h2, h3, fun i hi => by obtain ⟨v, hv, _⟩ := h4 i hi; exact ⟨v, hv⟩, h5⟩

/-- With exact arithmetic the value of every cell is the one of the model without memory (`Bres.findLine`, `Bres.fill`, `Horizon.hord`),
whatever the memory of the structure and of the arrays on the stack held before. -/
theorem C119_same (height : ℝ) (nx ny : Nat) (g : Grid ℝ) (h : Given nx ny g) (junk junk' : LineData) (mem : Arrays ℝ) (jh : Nat → Nat)
    (m : Buf (Option ℝ)) (hm : m.live = true) (hms : nx * ny ≤ m.size) :
    ∃ r, maxusMem (real height) nx ny g junk m = .ok r ∧ ∀ i, i < nx * ny →
      ∃ v sx sy ex ey, g.startX.val i = some sx ∧ g.startY.val i = some sy ∧ g.endX.val i = some ex ∧ g.endY.val i = some ey ∧
        r.val i = some v ∧
        let a := fill nx ny (fn g.x) (fn g.y) (fn g.z) { mem with n := 0 } 0 (findLine nx ny sx sy ex ey junk')
        Horizon.hord a.x a.y a.z height a.n jh = some v := by
  have e : ((nx : Int) * ny).toNat = nx * ny := by rw [← Int.natCast_mul, Int.toNat_natCast]
  have hg := h.args
  have := done_maxus (real height) hg junk (fun i v => ∃ sx sy ex ey, g.startX.val i = some sx ∧ g.startY.val i = some sy ∧
      g.endX.val i = some ex ∧ g.endY.val i = some ey ∧
      let a := fill nx ny (fn g.x) (fn g.y) (fn g.z) { mem with n := 0 } 0 (findLine nx ny sx sy ex ey junk)
      Horizon.hord a.x a.y a.z height a.n jh = some v) (by
    intro i hi s t e1 e2 e3 e4 hs u w hp hu hin hout a ha
    have hlen : 1 ≤ u.length := List.length_pos_iff.2 hu
    have hfill : fill nx ny (fn g.x) (fn g.y) (fn g.z) { mem with n := 0 } 0 (findLine nx ny s.1 s.2 t.1 t.2 junk) =
        fill nx ny (fn g.x) (fn g.y) (fn g.z) { mem with n := 0 } 0 u := by
      rw [hp, fill_append, fill_out _ _ _ _ _ _ _ w hout]
    obtain ⟨f1, _, f3⟩ := fill_in nx ny (fn g.x) (fn g.y) (fn g.z) { mem with n := 0 } 0 u hin
    have hn : (fill nx ny (fn g.x) (fn g.y) (fn g.z) { mem with n := 0 } 0 u).n = u.length := by rw [f1]; simp
    have some_of : ∀ {b : Buf ℝ} {k : Int}, (b.val k.toNat).isSome → b.val k.toNat = some (fn b k) := by
      intro b k hk
      unfold fn
      obtain ⟨v, hv⟩ := Option.isSome_iff_exists.1 hk
      rw [hv]; rfl
    have hpr := ha.prof (by simp) (fill nx ny (fn g.x) (fn g.y) (fn g.z) { mem with n := 0 } 0 u).x
      (fill nx ny (fn g.x) (fn g.y) (fn g.z) { mem with n := 0 } 0 u).y
      (fill nx ny (fn g.x) (fn g.y) (fn g.z) { mem with n := 0 } 0 u).z
      (fun k c hc => by
        have := (f3 k c hc).1; rw [Nat.zero_add] at this; rw [this]
        refine some_of ?_
        rw [← (ha.vx k c hc).1]; exact (ha.vx k c hc).2)
      (fun k c hc => by
        have := (f3 k c hc).2.1; rw [Nat.zero_add] at this; rw [this]
        refine some_of ?_
        rw [← (ha.vy k c hc).1]; exact (ha.vy k c hc).2)
      (fun k c hc => by
        have := (f3 k c hc).2.2; rw [Nat.zero_add] at this; rw [this]
        refine some_of ?_
        rw [← (ha.vz k c hc).1]; exact (ha.vz k c hc).2)
    refine (hord_same height hpr hlen jh).mono fun v hv => ⟨s.1, s.2, t.1, t.2, e1, e2, e3, e4, ?_⟩
    simp only
    rw [hfill, hn]
    exact hv) m hm (by rw [e]; exact hms)
  obtain ⟨r, h1, h2, h3, h4, h5⟩ := this
  rw [e] at h4
  refine ⟨r, h1, fun i hi => ?_⟩
  obtain ⟨v, hv, sx, sy, ex, ey, g1, g2, g3, g4, g5⟩ := h4 i hi
  refine ⟨v, sx, sy, ex, ey, g1, g2, g3, g4, hv, ?_⟩
  rw [findLine_junk nx ny sx sy ex ey junk' junk]
  exact g5

/-! ### The call from python -/

theorem array_filled {α : Type} (n : Nat) (f : Nat → α) : Filled (array n f) n :=
  ⟨rfl, Nat.le_refl _, fun k hk => ⟨f k, by simp [array, hk]⟩⟩

theorem array_val {α : Type} {n : Nat} {f : Nat → α} {k : Nat} {v : α} (h : (array n f).val k = some v) : k < n ∧ v = f k := by
  unfold array at h
  simp only at h
  split at h
  · exact ⟨by assumption, (Option.some.inj h).symm⟩
  · cases h

/-- How far the ends of the search are from the grid. -/
theorem farEnd_bound (d D X : ℝ) (t : ℝ) (hd : 0 < d) (hD : 0 ≤ D) (ht : |t| ≤ 1) :
    X - D / d - 1 ≤ ⌊(X * d + D * t) / d + 0.5⌋ ∧ (⌊(X * d + D * t) / d + 0.5⌋ : ℝ) ≤ X + D / d + 1 := by
  have e : (X * d + D * t) / d = X + D / d * t := by field_simp
  rw [e]
  obtain ⟨t1, t2⟩ := abs_le.1 ht
  have h1 := Int.floor_le (X + D / d * t + 0.5)
  have h2 := Int.lt_floor_add_one (X + D / d * t + 0.5)
  have hq : 0 ≤ D / d := div_nonneg hD hd.le
  have h3 : D / d * t ≤ D / d * 1 := mul_le_mul_of_nonneg_left t2 hq
  have h4 : D / d * (-1) ≤ D / d * t := mul_le_mul_of_nonneg_left t1 hq
  have half : (0.5 : ℝ) = 1 / 2 := by norm_num
  rw [half] at *
  constructor <;> linarith

/-- The call of `maxus_angle` is within what the C code needs: for every grid of fewer than 2^31 cells, every direction and every search
distance of fewer than about 2^31 cells, the call returns with every cell of the result written. -/
theorem C119_call {K R O : Type} (F : Ar K R O) (nx ny : Nat) (x y : Nat → K) (dem : Nat → Nat → K) (dx dy dmax angle : ℝ)
    (zero : O) (junk : LineData) (hdx : 0 < dx) (hdy : 0 < dy) (hd : 0 ≤ dmax) (hc : IsInt (nx * ny))
    (hx : nx + dmax / dx + 1 ≤ 2147483647) (hy : ny + dmax / dy + 1 ≤ 2147483647) :
    ∃ r, callMaxus F nx ny x y dem (fun row col => Window.farEnd dx dy dmax angle col row) zero junk = .ok r ∧
      r.size = ny * nx ∧ ∀ row col, row < ny → col < nx → ∃ v, r.val (row * nx + col) = some v := by
  unfold callMaxus
  have hk : ∀ k, k < ny * nx → 0 < nx ∧ k % nx < nx ∧ k / nx < ny := by
    intro k hk
    have h0 : 0 < nx := by
      rcases Nat.eq_zero_or_pos nx with h | h
      · rw [h, Nat.mul_zero] at hk; omega
      · exact h
    exact ⟨h0, Nat.mod_lt _ h0, Nat.div_lt_of_lt_mul (by rw [Nat.mul_comm]; exact hk)⟩
  have hcomm : nx * ny = ny * nx := Nat.mul_comm _ _
  have hends : ∀ row col, row < ny → col < nx → IsInt (Window.farEnd dx dy dmax angle col row).1 ∧
      IsInt (Window.farEnd dx dy dmax angle col row).2 := by
    intro row col hr hcl
    have c1 : ((col : Int) : ℝ) ≤ nx := by exact_mod_cast hcl.le
    have c0 : (0 : ℝ) ≤ ((col : Int) : ℝ) := by exact_mod_cast Nat.zero_le col
    have r1 : ((row : Int) : ℝ) ≤ ny := by exact_mod_cast hr.le
    have r0 : (0 : ℝ) ≤ ((row : Int) : ℝ) := by exact_mod_cast Nat.zero_le row
    have n0 : (0 : ℝ) ≤ nx := by exact_mod_cast Nat.zero_le nx
    have n1 : (0 : ℝ) ≤ ny := by exact_mod_cast Nat.zero_le ny
    have bx := farEnd_bound dx dmax (col : Int) (Real.cos (angle * (Real.pi / 180) - Real.pi / 2)) hdx hd (Real.abs_cos_le_one _)
    have by' := farEnd_bound dy dmax (row : Int) (Real.sin (angle * (Real.pi / 180) - Real.pi / 2)) hdy hd (Real.abs_sin_le_one _)
    change _ ≤ ((Window.farEnd dx dy dmax angle col row).1 : ℝ) ∧ ((Window.farEnd dx dy dmax angle col row).1 : ℝ) ≤ _ at bx
    change _ ≤ ((Window.farEnd dx dy dmax angle col row).2 : ℝ) ∧ ((Window.farEnd dx dy dmax angle col row).2 : ℝ) ≤ _ at by'
    generalize (Window.farEnd dx dy dmax angle col row).1 = u at *
    generalize (Window.farEnd dx dy dmax angle col row).2 = v at *
    have key : ∀ n : Int, (-2147483648 : ℝ) ≤ n → (n : ℝ) ≤ 2147483647 → IsInt n := by
      intro n h1 h2
      constructor
      · exact_mod_cast h1
      · exact_mod_cast h2
    exact ⟨key u (by linarith) (by linarith), key v (by linarith) (by linarith)⟩
  obtain ⟨r, h1, h2, h3, h4, h5⟩ := C119_defined F nx ny
    { x := array nx x
      y := array ny y
      z := array (ny * nx) fun k => dem (k / nx) (k % nx)
      startX := array (ny * nx) fun k => ((k % nx : Nat) : Int)
      startY := array (ny * nx) fun k => ((k / nx : Nat) : Int)
      endX := array (ny * nx) fun k => (Window.farEnd dx dy dmax angle (k % nx : Nat) (k / nx : Nat)).1
      endY := array (ny * nx) fun k => (Window.farEnd dx dy dmax angle (k % nx : Nat) (k / nx : Nat)).2 }
    ⟨hc, array_filled _ _, array_filled _ _, by rw [hcomm]; exact array_filled _ _, by rw [hcomm]; exact array_filled _ _,
      by rw [hcomm]; exact array_filled _ _, by rw [hcomm]; exact array_filled _ _, by rw [hcomm]; exact array_filled _ _,
      (by
        intro i sx sy hi e1 e2
        obtain ⟨k1, rfl⟩ := array_val e1
        obtain ⟨_, rfl⟩ := array_val e2
        obtain ⟨_, a2, a3⟩ := hk i k1
        exact ⟨Int.natCast_nonneg _, by exact_mod_cast a2, Int.natCast_nonneg _, by exact_mod_cast a3⟩),
      (by
        intro i ex ey hi e1 e2
        obtain ⟨k1, rfl⟩ := array_val e1
        obtain ⟨_, rfl⟩ := array_val e2
        obtain ⟨_, a2, a3⟩ := hk i k1
        exact hends _ _ a3 a2)⟩ junk (array (ny * nx) fun _ => zero) rfl (by rw [hcomm]; exact Nat.le_refl _)
  refine ⟨r, h1, by rw [h3]; rfl, fun row col hr hcl => h4 _ ?_⟩
  have : row * nx + nx ≤ ny * nx := by
    have := Nat.mul_le_mul_right nx (Nat.succ_le_of_lt hr)
    rw [Nat.succ_mul] at this
    exact this
  omega

/-- The bound on the number of cells is sharp: with more cells the first statement overflows. -/
theorem C119_limit {K R O : Type} (F : Ar K R O) (nx ny : Nat) (g : Grid K) (junk : LineData) (m : Buf O)
    (h : 2147483647 < (nx : Int) * ny) : maxusMem F nx ny g junk m = .error (.fault .overflow) := by
  unfold maxusMem int32
  have h2 : ¬ ((-2 ^ 31 : Int) ≤ nx * ny ∧ (nx : Int) * ny < 2 ^ 31) := by
    rintro ⟨_, h2⟩
    have : (2 : Int) ^ 31 = 2147483648 := by norm_num
    omega
  rw [if_neg h2]
  rfl

/-! ### Concrete cases -/

/-- Arithmetic of a stupid machine: every slope is the same and every slope is below every other one. -/
def oddAr : Ar Nat Unit Nat := ⟨fun _ _ _ _ _ _ => (), fun _ _ => true, fun _ => 7⟩

/-- Three by two cells, search two cells to the left and one up. -/
def small : Grid Nat where
  x := array 3 id
  y := array 2 id
  z := array 6 fun k => k * k
  startX := array 6 fun k => ((k % 3 : Nat) : Int)
  startY := array 6 fun k => ((k / 3 : Nat) : Int)
  endX := array 6 fun k => ((k % 3 : Nat) : Int) - 2
  endY := array 6 fun k => ((k / 3 : Nat) : Int) - 1

example : Given 3 2 small := by
  refine ⟨by unfold IsInt; decide, array_filled _ _, array_filled _ _, array_filled _ _, array_filled _ _, array_filled _ _, array_filled _ _,
    array_filled _ _, ?_, ?_⟩
  · intro i sx sy hi e1 e2
    obtain ⟨_, rfl⟩ := array_val e1
    obtain ⟨_, rfl⟩ := array_val e2
    omega
  · intro i sx sy hi e1 e2
    obtain ⟨_, rfl⟩ := array_val e1
    obtain ⟨_, rfl⟩ := array_val e2
    unfold IsInt
    omega

example : (cellMem oddAr 3 2 small (initLine 0 0 0 0) (local_ maxSize, local_ maxSize, array 6 fun _ => 0) 5).toOption.map
    (fun r => (List.range 6).map r.2.2.val) = some [some 0, some 0, some 0, some 0, some 0, some 7] := by decide +kernel

/-- A start outside the grid would write before the array `H`; the python code gives no such start. -/
example : (cellMem oddAr 3 2 { small with startX := array 6 fun _ => 9 } (initLine 0 0 0 0)
    (local_ maxSize, local_ maxSize, array 6 fun _ => 0) 5) matches .error (.fault .bounds) := by decide +kernel

example : IsInt (3 * 2) ∧ (3 : ℝ) + 100 / 50 + 1 ≤ 2147483647 := by
  constructor
  · unfold IsInt; omega
  · norm_num

end Verif.MaxusMem
