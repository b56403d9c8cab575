import Verif.KrigeMemLemmas
import Verif.KrigeLemmas

/-!
The kriging code with checked memory and exact arithmetic does the same as the model with functions for arrays (`Verif.Lu`,
`Verif.Krige`), from which the properties of the weights are proved.
-/

namespace Verif.KrigeMem
open Verif.CMem
set_option linter.unusedVariables false
set_option linter.unusedSectionVars false

variable {K : Type} [Field K] [LinearOrder K] [IsStrictOrderedRing K]

/-- Exact arithmetic. -/
def exact : Fl K where
  zero := 0
  one := 1
  sub := fun a b => a - b
  mul := fun a b => a * b
  div := fun a b => a / b
  abs := fun a => |a|
  lt := fun a b => decide (a < b)
  le := fun a b => decide (a ≤ b)
  eq := fun a b => decide (a = b)

theorem exact_ok : (exact (K := K)).Ok where
  absOne := abs_one
  absZero := abs_zero
  ltZeroOne := by simp [exact]
  ltOneOne := by simp [exact]
  ltOneZero := by simp [exact]
  ltZeroZero := by simp [exact]
  eqZero := by simp [exact]
  leOne := by simp [exact]

/-- If the computation returns, the result has a property. -/
def Ret {α : Type} (m : C α) (P : α → Prop) : Prop := ∀ a, m = .ok a → P a

theorem Ret.bind {α β : Type} {m : C α} {f : α → C β} {Q : α → Prop} {P : β → Prop} (h : Ret m Q) (hf : ∀ a, Q a → Ret (f a) P) :
    Ret (m.bind f) P := by
  match m with
  | .ok a => exact hf a (h a rfl)
  | .error _ => intro b e; cases e

theorem Ret.map {α β : Type} {m : C α} {f : α → β} {Q : α → Prop} {P : β → Prop} (h : Ret m Q) (hf : ∀ a, Q a → P (f a)) :
    Ret (m.map f) P := by
  match m with
  | .ok a => intro b e; cases e; exact hf a (h a rfl)
  | .error _ => intro b e; cases e

theorem Ret.mono {α : Type} {m : C α} {Q P : α → Prop} (h : Ret m Q) (hf : ∀ a, Q a → P a) : Ret m P :=
  fun a e => hf a (h a e)

theorem ret_ok {α : Type} {a : α} {P : α → Prop} (h : P a) : Ret (.ok a) P := fun b e => by cases e; exact h

theorem ret_error {α : Type} {e : Stop} {P : α → Prop} : Ret (α := α) (.error e) P := fun b h => by cases h

/-- A loop that follows a fold, from `lo` to `hi`. -/
theorem ret_span {S T : Type} (lo hi : Nat) (f : S → Nat → C S) (g : T → Nat → T) (φ : S → T)
    (h : ∀ s k, lo ≤ k → k < hi → Ret (f s k) fun t => φ t = g (φ s) k) (s : S) :
    Ret (forUp lo hi f s) fun t => φ t = (Lu.span lo hi).foldl g (φ s) := by
  unfold forUp
  have e : Lu.span lo hi = List.range' lo (hi - lo) := by
    unfold Lu.span
    rw [List.range_eq_range', show (fun x => x + lo) = (fun x => lo + x) from funext fun x => Nat.add_comm x lo, List.map_add_range',
      Nat.add_zero]
  rw [e]
  have h' : ∀ s k, k ∈ List.range' lo (hi - lo) → Ret (f s k) fun t => φ t = g (φ s) k := fun s k hk => by
    rw [List.mem_range'_1] at hk
    exact h s k (by omega) (by omega)
  generalize List.range' lo (hi - lo) = l at h'
  clear e
  induction l generalizing s with
  | nil => exact ret_ok rfl
  | cons k l ih =>
    rw [List.foldlM_cons, List.foldl_cons]
    refine Ret.bind (h' s k (by simp)) fun t ht => ?_
    rw [← ht]
    exact ih t fun s k hk => h' s k (by simp [hk])

theorem ret_range {S T : Type} (hi : Nat) (f : S → Nat → C S) (g : T → Nat → T) (φ : S → T)
    (h : ∀ s k, k < hi → Ret (f s k) fun t => φ t = g (φ s) k) (s : S) :
    Ret (forUp 0 hi f s) fun t => φ t = (List.range hi).foldl g (φ s) := by
  have := ret_span 0 hi f g φ (fun s k _ hk => h s k hk) s
  simpa [Lu.span] using this

theorem ret_down {S T : Type} (n : Nat) (f : S → Nat → C S) (g : T → Nat → T) (φ : S → T)
    (h : ∀ s k, k < n → Ret (f s k) fun t => φ t = g (φ s) k) (s : S) :
    Ret (forDown n f s) fun t => φ t = (List.range n).reverse.foldl g (φ s) := by
  induction n generalizing s with
  | zero => exact ret_ok rfl
  | succ n ih =>
    rw [List.range_succ, List.reverse_append, List.reverse_singleton, List.singleton_append, List.foldl_cons]
    refine Ret.bind (h s n (by omega)) fun t ht => ?_
    rw [← ht]
    exact ih (fun s k hk => h s k (by omega)) t

theorem ret_forRet {S T : Type} (n : Nat) (f : S → Nat → C (Option S)) (g : T → Nat → Option T) (φ : S → T)
    (h : ∀ s k, k < n → Ret (f s k) fun r => r.map φ = g (φ s) k) (s : S) :
    Ret (forRet n 0 f s) fun r => r.map φ = (List.range n).foldlM g (φ s) := by
  have key : ∀ rest i s, i + rest = n → Ret (forRet rest i f s) fun r => r.map φ = (List.range' i rest).foldlM g (φ s) := by
    intro rest
    induction rest with
    | zero => intro i s _; exact ret_ok rfl
    | succ rest ih =>
      intro i s e
      rw [List.range'_succ, List.foldlM_cons]
      refine Ret.bind (h s i (by omega)) fun r hr => ?_
      rw [← hr]
      cases r with
      | none => exact ret_ok rfl
      | some t => exact ih (i + 1) t (by omega)
  rw [List.range_eq_range']
  exact key n 0 s (by omega)

/-- The vector as a function; what is not written counts as zero. -/
def vecOf {α : Type} [Zero α] (b : Buf α) (k : Nat) : α := (b.val k).getD 0

/-- The matrix as a function. -/
def matOf (a : Buf (Buf K)) (r c : Nat) : K := (get a r c).getD 0

theorem ret_rd {α : Type} [Zero α] (b : Buf α) (i : Int) : Ret (b.rd i) fun v => v = vecOf b i.toNat ∧ b.val i.toNat = some v ∧ 0 ≤ i := by
  unfold Buf.rd
  split
  · exact ret_error
  · split
    · exact ret_error
    · split
      · exact ret_error
      · rename_i h1 h2 v h
        exact ret_ok ⟨by unfold vecOf; rw [h]; rfl, h, by omega⟩

theorem ret_wr {α : Type} [Zero α] (b : Buf α) (i : Int) (v : α) :
    Ret (b.wr i v) fun c => vecOf c = Lu.put (vecOf b) i.toNat v ∧ (∀ k, c.val k = if k = i.toNat then some v else b.val k) ∧ 0 ≤ i := by
  unfold Buf.wr
  split
  · exact ret_error
  · split
    · exact ret_error
    · refine ret_ok ⟨?_, fun k => rfl, by omega⟩
      funext k
      unfold vecOf Lu.put
      by_cases e : k = i.toNat <;> simp [e]

theorem ret_rd2 (a : Buf (Buf K)) (i j : Int) : Ret (rd2 a i j) fun v => v = matOf a i.toNat j.toNat ∧ 0 ≤ i ∧ 0 ≤ j := by
  unfold rd2 Buf.rd
  split
  · exact ret_error
  · split
    · exact ret_error
    · split
      · exact ret_error
      · rename_i h1 h2 row h
        show Ret (row.rd j) _
        unfold Buf.rd
        split
        · exact ret_error
        · split
          · exact ret_error
          · split
            · exact ret_error
            · rename_i v hv
              exact ret_ok ⟨by unfold matOf CMem.get; rw [h]; simp [hv], by omega, by omega⟩

theorem ret_wr2 (a : Buf (Buf K)) (i j : Int) (v : K) :
    Ret (wr2 a i j v) fun b => matOf b = Lu.set (matOf a) i.toNat j.toNat v ∧ 0 ≤ i ∧ 0 ≤ j := by
  unfold wr2 Buf.rd
  split
  · exact ret_error
  · split
    · exact ret_error
    · split
      · exact ret_error
      · rename_i h1 h2 row h
        show Ret (Except.map _ (row.wr j v)) _
        unfold Buf.wr
        split
        · exact ret_error
        · split
          · exact ret_error
          · refine ret_ok ⟨?_, by omega, by omega⟩
            funext r c
            unfold matOf CMem.get Lu.set
            by_cases e : r = i.toNat
            · subst e
              by_cases e2 : c = j.toNat <;> simp [e2, h]
            · simp [e]

/-! ### lusolv.c -/

theorem ret_rowBig (n : Nat) (a : Buf (Buf K)) (i : Nat) : Ret (rowBig exact n a i) fun b => b = Lu.rowBig n (matOf a) i := by
  refine ret_range n _ (fun big j => if big < |matOf a i j| then |matOf a i j| else big) id (fun s k _ => ?_) (0 : K)
  refine Ret.map (ret_rd2 a i k) fun v hv => ?_
  rw [hv.1]
  simp [exact]

theorem ret_scaling (n : Nat) (a : Buf (Buf K)) (vv : Buf K) :
    Ret (scaling exact n a vv) fun r => r.map vecOf = Lu.scaling n (matOf a) (vecOf vv) := by
  refine ret_forRet n _ _ vecOf (fun s k _ => ?_) vv
  refine Ret.bind (ret_rowBig n a k) fun b hb => ?_
  subst hb
  by_cases e : Lu.rowBig n (matOf a) k = 0
  · rw [if_pos (by simp [exact, e]), if_pos e]
    exact ret_ok rfl
  · rw [if_neg (by simp [exact, e]), if_neg e]
    refine Ret.map (ret_wr s k _) fun c hc => ?_
    simp [hc.1, exact]

theorem ret_reduce (a : Buf (Buf K)) (i j lo hi : Nat) (sum : K) :
    Ret (reduce exact a i j lo hi sum) fun v => v = (Lu.span lo hi).foldl (fun sum k => sum - matOf a i k * matOf a k j) sum := by
  refine ret_span lo hi _ (fun sum k => sum - matOf a i k * matOf a k j) id (fun s k _ _ => ?_) sum
  refine Ret.bind (ret_rd2 a i k) fun u hu => ?_
  refine Ret.map (ret_rd2 a k j) fun v hv => ?_
  rw [hu.1, hv.1]
  simp [exact]

theorem span_zero (n : Nat) : Lu.span 0 n = List.range n := by simp [Lu.span]

theorem ret_upper (j : Nat) (a : Buf (Buf K)) : Ret (upper exact j a) fun b => matOf b = Lu.upper j (matOf a) := by
  refine ret_range j _ _ matOf (fun s i _ => ?_) a
  refine Ret.bind (ret_rd2 s i j) fun sum hs => ?_
  refine Ret.bind (ret_reduce s i j 0 i sum) fun sum' hs' => ?_
  refine (ret_wr2 s i j sum').mono fun b hb => ?_
  rw [hb.1, hs', hs.1, span_zero]
  rfl

/-- The state of the search as in the other model. -/
def searchOf (s : Search K) : Lu.Search K := ⟨matOf s.a, s.big, (s.imax.getD 0).toNat⟩

theorem ret_searchRow (j : Nat) (vv : Buf K) (s : Search K) (i : Nat) :
    Ret (searchRow exact j vv s i) fun t => searchOf t = Lu.searchRow j (vecOf vv) (searchOf s) i := by
  unfold searchRow
  refine Ret.bind (ret_rd2 s.a i j) fun sum hs => ?_
  refine Ret.bind (ret_reduce s.a i j 0 j sum) fun sum' hs' => ?_
  refine Ret.bind (ret_wr2 s.a i j sum') fun b hb => ?_
  refine Ret.map (ret_rd vv i) fun v hv => ?_
  have e : sum' = Lu.reduced (matOf s.a) i j (List.range j) := by rw [hs', hs.1, span_zero]; rfl
  unfold Lu.searchRow searchOf
  simp only [Int.toNat_natCast] at hv hb
  rw [hv.1]
  by_cases hle : s.big ≤ vecOf vv i * |sum'|
  · rw [if_pos (by simpa [exact] using hle), if_pos (by rw [← e]; exact hle)]
    simp [hb.1, e, exact]
  · rw [if_neg (by simpa [exact] using hle), if_neg (by rw [← e]; exact hle)]
    simp [hb.1, e]

theorem ret_swapRows (n j : Nat) (imax : Int) (a : Buf (Buf K)) :
    Ret (swapRows n j imax a) fun b => matOf b = Lu.swapRows n j imax.toNat (matOf a) := by
  refine ret_range n _ _ matOf (fun s k _ => ?_) a
  refine Ret.bind (ret_rd2 s imax k) fun dum hd => ?_
  refine Ret.bind (ret_rd2 s j k) fun v hv => ?_
  refine Ret.bind (ret_wr2 s imax k v) fun b hb => ?_
  refine (ret_wr2 b j k dum).mono fun c hc => ?_
  rw [hc.1, hb.1, hd.1, hv.1]
  simp

/-- The state of the loop over the columns as in the other model. -/
def stateOf (s : State K) : Lu.State K := ⟨matOf s.a, vecOf s.vv, fun k => (vecOf s.indx k).toNat, (s.imax.getD 0).toNat⟩

theorem put_toNat (b c : Buf Int) (i : Nat) (v : Int) (h : vecOf c = Lu.put (vecOf b) i v) :
    (fun k => (vecOf c k).toNat) = Lu.put (fun k => (vecOf b k).toNat) i v.toNat := by
  funext k
  rw [h]
  unfold Lu.put
  split <;> rfl

theorem ret_column (n : Nat) (s : State K) (j : Nat) (hj : j < n) :
    Ret (column exact n s j) fun r => r.map stateOf = Lu.column n (stateOf s) j := by
  unfold column
  refine Ret.bind (ret_upper j s.a) fun a ha => ?_
  refine Ret.bind (Q := fun f => searchOf f = Lu.search n j (vecOf s.vv) (matOf a) (s.imax.getD 0).toNat) ?_ fun f hf => ?_
  · exact ret_span j n _ _ searchOf (fun t k _ _ => ret_searchRow j s.vv t k) ⟨a, exact.zero, s.imax⟩
  · rw [ha] at hf
    have hcol : Lu.column n (stateOf s) j =
        (let a := if j = (searchOf f).imax then (searchOf f).a else Lu.swapRows n j (searchOf f).imax (searchOf f).a
         let vv := if j = (searchOf f).imax then vecOf s.vv else Lu.put (vecOf s.vv) (searchOf f).imax (vecOf s.vv j)
         let indx := Lu.put (fun k => (vecOf s.indx k).toNat) j (searchOf f).imax
         if a j j = 0 then none
         else if j = n - 1 then some ⟨a, vv, indx, (searchOf f).imax⟩
         else some ⟨(Lu.span (j + 1) n).foldl (fun b i => Lu.set b i j (b i j * (1 / a j j))) a, vv, indx, (searchOf f).imax⟩) := by
      rw [hf]; rfl
    rw [hcol]
    cases him : f.imax with
    | none => exact ret_error
    | some m =>
      have hI : (searchOf f).imax = m.toNat := by unfold searchOf; rw [him]; rfl
      have hA : (searchOf f).a = matOf f.a := rfl
      rw [hI, hA]
      show Ret (Except.bind (if (j : Int) ≠ m then _ else _) _) _
      refine Ret.bind (Q := fun p => matOf p.1 = (if j = m.toNat then matOf f.a else Lu.swapRows n j m.toNat (matOf f.a)) ∧
        vecOf p.2 = if j = m.toNat then vecOf s.vv else Lu.put (vecOf s.vv) m.toNat (vecOf s.vv j)) ?_ fun p hp => ?_
      · split
        · rename_i hne
          refine Ret.bind (ret_swapRows n j m f.a) fun b hb => ?_
          refine Ret.bind (ret_rd s.vv j) fun v hv => ?_
          refine Ret.map (ret_wr s.vv m v) fun c hc => ?_
          rw [if_neg (by omega), if_neg (by omega)]
          exact ⟨hb, by rw [hc.1, hv.1]; rfl⟩
        · rename_i hne
          exact ret_ok ⟨by rw [if_pos (by omega)], by rw [if_pos (by omega)]⟩
      · obtain ⟨b, vv⟩ := p
        obtain ⟨hb, hv⟩ := hp
        simp only at hb hv
        rw [← hb, ← hv]
        refine Ret.bind (ret_wr s.indx j m) fun indx hx => ?_
        refine Ret.bind (ret_rd2 b j j) fun p hp => ?_
        have hpj : p = matOf b j j := hp.1
        have hix := put_toNat s.indx indx j m hx.1
        by_cases h0 : matOf b j j = 0
        · rw [if_pos (by simp [exact, hpj, h0])]
          simp only
          rw [if_pos h0]
          exact ret_ok rfl
        · rw [if_neg (by simp [exact, hpj, h0])]
          simp only
          rw [if_neg h0]
          by_cases hl : j = n - 1
          · rw [if_neg (by simpa using hl), if_pos hl]
            refine ret_ok ?_
            simp [stateOf, hix]
          · rw [if_pos hl, if_neg hl]
            refine Ret.bind (ret_rd2 b j j) fun p hp => ?_
            have hpj : p = matOf b j j := hp.1
            refine Ret.map (ret_span (j + 1) n _ (fun (c : Nat → Nat → K) i => Lu.set c i j (c i j * (1 / matOf b j j))) matOf
              (fun c i _ _ => ?_) b) fun c hc => ?_
            · refine Ret.bind (ret_rd2 c i j) fun v hv => ?_
              refine (ret_wr2 c i j _).mono fun d hd => ?_
              rw [hd.1, hv.1, hpj]
              simp [exact]
            · simp [stateOf, hix, hc]

theorem ret_malloc {α : Type} [Zero α] (n : Int) : Ret (malloc (α := α) n) fun b => vecOf b = fun _ => 0 := by
  unfold malloc
  split
  · exact ret_ok rfl
  · exact ret_error

/-- `indx` as in the other model. -/
def rowsOf (b : Buf Int) (k : Nat) : Nat := (vecOf b k).toNat

theorem ret_ludcmp (n : Nat) (a : Buf (Buf K)) (indx : Buf Int) :
    Ret (ludcmp exact n a indx) fun r => r.map (fun t => (matOf t.1, rowsOf t.2.1)) =
      (Lu.ludcmp n (matOf a) (fun _ => 0) (rowsOf indx) 0).map fun s => (s.a, s.indx) := by
  unfold ludcmp Lu.ludcmp
  refine Ret.bind (ret_malloc (n : Int)) fun vv hvv => ?_
  refine Ret.bind (ret_scaling n a vv) fun r hr => ?_
  rw [← hvv, ← hr]
  cases r with
  | none => exact ret_ok rfl
  | some vv =>
    refine Ret.bind (ret_forRet n _ _ stateOf (fun s k hk => ret_column n s k hk) ⟨a, vv, indx, none⟩) fun r hr => ?_
    have e : stateOf (⟨a, vv, indx, none⟩ : State K) = ⟨matOf a, vecOf vv, rowsOf indx, 0⟩ := rfl
    rw [e] at hr
    simp only [Option.map_some]
    rw [← hr]
    cases r with
    | none => exact ret_ok rfl
    | some s => exact Ret.map (Q := fun _ => True) (fun _ _ => trivial) fun _ _ => rfl

/-- The state of the forward substitution as in the other model. -/
def forwardOf (s : Buf (Buf K) × Int) : Lu.Forward K := ⟨matOf s.1, if s.2 < 0 then none else some s.2.toNat⟩

theorem ret_forwardRow (n : Nat) (indx : Buf Int) (s : Buf (Buf K) × Int) (i : Nat) :
    Ret (forwardRow exact n indx s i) fun t => forwardOf t = Lu.forwardRow n (rowsOf indx) (forwardOf s) i := by
  unfold forwardRow
  refine Ret.bind (ret_rd indx i) fun ip hip => ?_
  have e : ip.toNat = rowsOf indx i := by rw [hip.1]; rfl
  refine Ret.bind (ret_rd2 s.1 ip n) fun sum hs => ?_
  refine Ret.bind (ret_rd2 s.1 i n) fun v hv => ?_
  refine Ret.bind (ret_wr2 s.1 ip n v) fun a ha => ?_
  have ha' : matOf a = Lu.set (matOf s.1) (rowsOf indx i) n (matOf s.1 i n) := by rw [ha.1, hv.1, e]; rfl
  have hs' : sum = matOf s.1 (rowsOf indx i) n := by rw [hs.1, e]; rfl
  by_cases h : 0 ≤ s.2
  · rw [if_pos h]
    refine Ret.bind (ret_reduce a i n s.2.toNat i sum) fun sum' hs'' => ?_
    refine Ret.map (ret_wr2 a i n sum') fun b hb => ?_
    unfold forwardOf Lu.forwardRow
    simp only
    rw [if_neg (by omega : ¬ s.2 < 0), hb.1, hs'', hs', ha']
    rfl
  · rw [if_neg h]
    refine Ret.map (ret_wr2 a i n sum) fun b hb => ?_
    unfold forwardOf Lu.forwardRow
    simp only
    rw [if_pos (by omega : s.2 < 0), hb.1, hs', ha']
    by_cases h0 : (0 : K) < matOf s.1 (rowsOf indx i) n
    · have h0' : exact.lt exact.zero (matOf s.1 (rowsOf indx i) n) = true := by simpa [exact] using h0
      simp only [h0', h0, if_true, Int.toNat_natCast]
      rw [if_neg (by omega)]
    · have h0' : exact.lt exact.zero (matOf s.1 (rowsOf indx i) n) = false := by simpa [exact] using h0
      simp only [h0', h0, if_false, Int.toNat_natCast]
      rw [if_pos (by simp; omega)]

theorem ret_lubksb (n : Nat) (a : Buf (Buf K)) (indx : Buf Int) :
    Ret (lubksb exact n a indx) fun b => matOf b = Lu.lubksb n (matOf a) (rowsOf indx) := by
  unfold lubksb
  refine Ret.bind (ret_range n _ _ forwardOf (fun s k _ => ret_forwardRow n indx s k) (a, -1)) fun s hs => ?_
  have e : matOf s.1 = ((List.range n).foldl (Lu.forwardRow n (rowsOf indx)) ⟨matOf a, none⟩).a := by
    have : forwardOf (a, -1) = ⟨matOf a, none⟩ := by unfold forwardOf; simp
    rw [← this, ← hs]
    rfl
  refine (ret_down n _ (Lu.backRow n) matOf (fun b i _ => ?_) s.1).mono fun b hb => by rw [hb, e]; rfl
  unfold backRow
  refine Ret.bind (ret_rd2 b i n) fun sum hs => ?_
  refine Ret.bind (ret_reduce b i n (i + 1) n sum) fun sum' hs' => ?_
  refine Ret.bind (ret_rd2 b i i) fun d hd => ?_
  refine (ret_wr2 b i n _).mono fun c hc => ?_
  rw [hc.1, hs', hs.1, hd.1]
  rfl

/-- Memory that holds zeros. -/
def clean : Lu.Junk K := ⟨fun _ => 0, fun _ => 0, 0⟩

theorem foldl_put (n : Nat) (f x : Nat → K) (k : Nat) :
    ((List.range n).foldl (fun x i => Lu.put x i (f i)) x) k = if k < n then f k else x k := by
  induction n with
  | zero => simp
  | succ n ih =>
    rw [List.range_succ, List.foldl_append, List.foldl_cons, List.foldl_nil]
    unfold Lu.put at ih ⊢
    by_cases e : k = n
    · subst e; simp
    · rw [if_neg e, ih]
      by_cases h : k < n
      · rw [if_pos h, if_pos (by omega)]
      · rw [if_neg h, if_neg (by omega)]

theorem ret_lusolv (n : Nat) (a : Buf (Buf K)) (x : Buf K) :
    Ret (lusolv exact n a x) fun r => match r with
      | none => Lu.lusolv clean n (matOf a) = none
      | some t => ∃ y, Lu.lusolv clean n (matOf a) = some y ∧ ∀ i, i < n → vecOf t.x i = y i := by
  unfold lusolv Lu.lusolv
  refine Ret.bind (ret_malloc (n : Int)) fun indx hindx => ?_
  refine Ret.bind (ret_ludcmp n a indx) fun r hr => ?_
  have e : rowsOf indx = fun _ => 0 := by funext k; unfold rowsOf; rw [hindx]; rfl
  rw [e] at hr
  show Ret _ _
  simp only [clean]
  cases hL : Lu.ludcmp n (matOf a) (fun _ => 0) (fun _ => 0) 0 with
  | none =>
    rw [hL] at hr
    cases r with
    | none => exact ret_ok rfl
    | some t => simp at hr
  | some s =>
    rw [hL] at hr
    match r, hr with
    | none, hr => simp at hr
    | some (b, indx, vv), hr =>
      simp only [Option.map_some, Option.some.injEq, Prod.mk.injEq] at hr
      refine Ret.bind (ret_lubksb n b indx) fun c hc => ?_
      refine Ret.bind (ret_range n _ (fun x i => Lu.put x i (matOf c i n)) vecOf (fun x i _ => ?_) x) fun x hx => ?_
      · refine Ret.bind (ret_rd2 c i n) fun v hv => ?_
        refine (ret_wr x i v).mono fun y hy => ?_
        rw [hy.1, hv.1]
        rfl
      · refine Ret.map (Q := fun _ => True) (fun _ _ => trivial) fun _ _ => ⟨_, rfl, fun i hi => ?_⟩
        simp only
        rw [hx, foldl_put, if_pos hi, hc, hr.1, hr.2]

/-! ### krige.c -/

/-- The flags as in the other model. -/
def flagOf (f : Buf Int) (k : Nat) : Bool := decide (f.val k = some 1)

theorem ret_flag (f : Buf Int) (k : Nat) : Ret (f.rd k) fun v => flagOf f k = decide (v = 1) := by
  refine (ret_rd f k).mono fun v hv => ?_
  have := hv.2.1
  simp only [Int.toNat_natCast] at this
  unfold flagOf
  rw [this]
  simp

theorem ret_setFlag (f : Buf Int) (k v : Int) : Ret (f.wr k v) fun g => flagOf g = Lu.put (flagOf f) k.toNat (decide (v = 1)) := by
  refine (ret_wr f k v).mono fun g hg => ?_
  funext i
  unfold flagOf Lu.put
  rw [hg.2.1]
  by_cases e : i = k.toNat <;> simp [e]

theorem ret_int32 (n : Int) : Ret (int32 n) fun m => m = n := by
  unfold int32
  split
  · exact ret_ok rfl
  · exact ret_error

/-- A pair of an array and a counter from -1. -/
def countOf {α β : Type} (φ : α → β) (s : α × Int) : β × Nat := (φ s.1, (s.2 + 1).toNat)

theorem ret_loadRow (nsta : Nat) (ad : Buf K) (f : Buf Int) (m : Nat) (mm : Int) (a : Buf (Buf K)) :
    Ret (loadRow nsta ad f m mm a) fun r =>
      matOf r.1 = Krige.loadRow nsta (fun m n => vecOf ad (m * nsta + n)) (flagOf f) m mm.toNat (matOf a) := by
  unfold loadRow Krige.loadRow
  refine (ret_range nsta _ (fun (s : (Nat → Nat → K) × Nat) n =>
    if flagOf f n then (Lu.set s.1 mm.toNat s.2 (vecOf ad (m * nsta + n)), s.2 + 1) else s) (countOf matOf) (fun s k _ => ?_) (a, -1)).mono
    fun r hr => congrArg Prod.fst hr
  refine Ret.bind (ret_flag f k) fun v hv => ?_
  rw [hv]
  by_cases e : v = 1
  · rw [if_pos e, if_pos (by simpa using e)]
    refine Ret.bind (ret_int32 _) fun p hp => ?_
    refine Ret.bind (ret_int32 _) fun q hq => ?_
    refine Ret.bind (ret_rd ad q) fun x hx => ?_
    refine Ret.map (ret_wr2 s.1 mm (s.2 + 1) x) fun b hb => ?_
    have hq' : q.toNat = m * nsta + k := by rw [hq, hp]; norm_cast
    unfold countOf
    simp only
    rw [hb.1, hx.1, hq']
    congr 1
    omega
  · rw [if_neg e, if_neg (by simpa using e)]
    exact ret_ok rfl

theorem ret_load (nsta ns : Nat) (ad dgrid : Buf K) (o : Nat) (f : Buf Int) (a : Buf (Buf K)) :
    Ret (load exact nsta ns ad dgrid (o : Int) f a) fun b =>
      matOf b = Krige.load nsta ns (fun m n => vecOf ad (m * nsta + n)) (fun m => vecOf dgrid (o + m)) (flagOf f) (matOf a) := by
  unfold load Krige.load
  refine Ret.bind (ret_range nsta _ (fun (s : (Nat → Nat → K) × Nat) m =>
    if flagOf f m then
      let a := Krige.loadRow nsta (fun m n => vecOf ad (m * nsta + n)) (flagOf f) m s.2 s.1
      let a := Lu.set a ns s.2 1
      let a := Lu.set a s.2 ns 1
      (Lu.set a s.2 (ns + 1) (vecOf dgrid (o + m)), s.2 + 1)
    else s) (countOf matOf) (fun s m _ => ?_) (a, -1)) fun s hs => ?_
  · refine Ret.bind (ret_flag f m) fun v hv => ?_
    rw [hv]
    by_cases e : v = 1
    · rw [if_pos e, if_pos (by simpa using e)]
      refine Ret.bind (ret_loadRow nsta ad f m (s.2 + 1) s.1) fun r hr => ?_
      refine Ret.bind (ret_wr2 r.1 ns (s.2 + 1) _) fun b hb => ?_
      refine Ret.bind (ret_wr2 b (s.2 + 1) ns _) fun c hc => ?_
      refine Ret.bind (ret_rd dgrid _) fun d hd => ?_
      refine Ret.map (ret_wr2 c (s.2 + 1) _ d) fun b' hb' => ?_
      have e1 : ((o : Int) + (m : Int)).toNat = o + m := by omega
      have e2 : ((ns : Int) + 1).toNat = ns + 1 := by omega
      unfold countOf
      simp only
      rw [hb'.1, hc.1, hb.1, hr, hd.1, e1, e2]
      have h0 := hb.2.2
      refine Prod.ext rfl ?_
      simp only
      omega
    · rw [if_neg e, if_neg (by simpa using e)]
      exact ret_ok rfl
  · have e : matOf s.1 = _ := congrArg Prod.fst hs
    refine Ret.bind (ret_wr2 s.1 ns ns _) fun b hb => ?_
    refine (ret_wr2 b ns _ _).mono fun c hc => ?_
    have e2 : ((ns : Int) + 1).toNat = ns + 1 := by omega
    rw [hc.1, hb.1, e, e2]
    rfl

/-- The search for the station to drop as in the other model. -/
def dropOf (d : Drop K) : Krige.Drop K := ⟨(d.mm + 1).toNat, if d.msave < 0 then none else some d.msave.toNat, d.elevsave⟩

theorem ret_drop (nsta : Nat) (elev : Buf K) (f : Buf Int) (wcalc : Buf K) :
    Ret (drop exact nsta elev f wcalc) fun d =>
      Krige.drop nsta (flagOf f) (vecOf elev) (vecOf wcalc) = if d.msave < 0 then none else some d.msave.toNat := by
  unfold drop Krige.drop
  refine (ret_range nsta _ (Krige.dropStep (flagOf f) (vecOf elev) (vecOf wcalc)) dropOf (fun s m _ => ?_) ⟨-1, -1, 0⟩).mono fun d hd => ?_
  · refine Ret.bind (ret_flag f m) fun v hv => ?_
    unfold Krige.dropStep
    rw [hv]
    by_cases e : v = 1
    · rw [if_pos e, if_pos (by simpa using e)]
      refine Ret.bind (ret_rd wcalc (s.mm + 1)) fun w hw => ?_
      have hm : (s.mm + 1 + 1).toNat = (s.mm + 1).toNat + 1 := by have := hw.2.2; omega
      have hw' : w = vecOf wcalc (dropOf s).mm := hw.1
      rw [← hw']
      by_cases h0 : w < 0
      · rw [if_pos (by simpa [exact] using h0), if_pos h0]
        refine Ret.bind (ret_rd elev m) fun e' he => ?_
        have he' : e' = vecOf elev m := he.1
        rw [← he']
        by_cases h1 : s.elevsave < e'
        · rw [if_pos (by simpa [exact] using h1), if_pos (show (dropOf s).elevsave < e' from h1)]
          exact ret_ok (by simp [dropOf, hm])
        · rw [if_neg (by simpa [exact] using h1), if_neg (show ¬ (dropOf s).elevsave < e' from h1)]
          exact ret_ok (by simp [dropOf, hm])
      · rw [if_neg (by simpa [exact] using h0), if_neg h0]
        exact ret_ok (by simp [dropOf, hm])
    · rw [if_neg e, if_neg (by simpa using e)]
      exact ret_ok rfl
  · have e : dropOf (⟨-1, -1, 0⟩ : Drop K) = ⟨0, none, 0⟩ := by simp [dropOf]
    rw [e] at hd
    rw [← hd]
    rfl

theorem ret_scatter (nsta : Nat) (f : Buf Int) (wcalc w : Buf K) :
    Ret (scatter exact nsta f wcalc w) fun r => vecOf r.1 = Krige.scatter nsta (flagOf f) (vecOf wcalc) (vecOf w) := by
  unfold scatter Krige.scatter
  refine (ret_range nsta _ (fun (s : (Nat → K) × Nat) m =>
    if flagOf f m then (Lu.put s.1 m (vecOf wcalc s.2), s.2 + 1) else (Lu.put s.1 m 0, s.2)) (countOf vecOf) (fun s m _ => ?_) (w, -1)).mono
    fun r hr => congrArg Prod.fst hr
  refine Ret.bind (ret_flag f m) fun v hv => ?_
  rw [hv]
  by_cases e : v = 1
  · rw [if_pos e, if_pos (by simpa using e)]
    refine Ret.bind (ret_rd wcalc (s.2 + 1)) fun x hx => ?_
    refine Ret.map (ret_wr s.1 m x) fun c hc => ?_
    unfold countOf
    simp only
    rw [hc.1, hx.1]
    refine Prod.ext rfl ?_
    have := hx.2.2
    simp only
    omega
  · rw [if_neg e, if_neg (by simpa using e)]
    refine Ret.map (ret_wr s.1 m _) fun c hc => ?_
    unfold countOf
    simp only
    rw [hc.1]
    rfl

theorem cnt_flagOf (f : Buf Int) (m : Nat) : Krige.cnt (flagOf f) m = cnt f.val m := by
  induction m with
  | zero => rfl
  | succ m ih =>
    rw [cnt_succ, Krige.cnt, ih]
    unfold flagOf
    by_cases e : f.val m = some 1 <;> simp [e]

/-- Only as many weights as there are stations in use are looked at. -/
theorem drop_congr (nsta : Nat) (flag : Nat → Bool) (elev x y : Nat → K) (h : ∀ i, i < Krige.cnt flag nsta → x i = y i) :
    Krige.drop nsta flag elev x = Krige.drop nsta flag elev y := by
  have key : ∀ m, m ≤ nsta → (List.range m).foldl (Krige.dropStep flag elev x) ⟨0, none, 0⟩ =
      (List.range m).foldl (Krige.dropStep flag elev y) ⟨0, none, 0⟩ ∧
        ((List.range m).foldl (Krige.dropStep flag elev y) ⟨0, none, 0⟩).mm = Krige.cnt flag m := by
    intro m
    induction m with
    | zero => intro _; exact ⟨rfl, rfl⟩
    | succ m ih =>
      intro hm
      obtain ⟨h1, h2⟩ := ih (by omega)
      rw [List.range_succ, List.foldl_append, List.foldl_append, h1]
      simp only [List.foldl_cons, List.foldl_nil]
      generalize (List.range m).foldl (Krige.dropStep flag elev y) ⟨0, none, 0⟩ = s at h2
      unfold Krige.dropStep
      by_cases hf : flag m = true
      · have hlt := Krige.cnt_lt flag (show m < nsta by omega) hf
        rw [if_pos hf, if_pos hf, h s.mm (by omega)]
        refine ⟨rfl, ?_⟩
        rw [Krige.cnt, if_pos hf, ← h2]
        split
        · split <;> rfl
        · rfl
      · rw [if_neg hf, if_neg hf, Krige.cnt, if_neg hf, h2]
        exact ⟨rfl, rfl⟩
  unfold Krige.drop
  rw [(key nsta (Nat.le_refl _)).1]

theorem scatter_congr (nsta : Nat) (flag : Nat → Bool) (x y w : Nat → K) (h : ∀ i, i < Krige.cnt flag nsta → x i = y i) :
    Krige.scatter nsta flag x w = Krige.scatter nsta flag y w := by
  have key : ∀ m, m ≤ nsta → (List.range m).foldl (fun (s : (Nat → K) × Nat) m =>
      if flag m then (Lu.put s.1 m (x s.2), s.2 + 1) else (Lu.put s.1 m 0, s.2)) (w, 0) =
      (List.range m).foldl (fun (s : (Nat → K) × Nat) m =>
        if flag m then (Lu.put s.1 m (y s.2), s.2 + 1) else (Lu.put s.1 m 0, s.2)) (w, 0) ∧
      ((List.range m).foldl (fun (s : (Nat → K) × Nat) m =>
        if flag m then (Lu.put s.1 m (y s.2), s.2 + 1) else (Lu.put s.1 m 0, s.2)) (w, 0)).2 = Krige.cnt flag m := by
    intro m
    induction m with
    | zero => intro _; exact ⟨rfl, rfl⟩
    | succ m ih =>
      intro hm
      obtain ⟨h1, h2⟩ := ih (by omega)
      rw [List.range_succ, List.foldl_append, List.foldl_append, h1]
      simp only [List.foldl_cons, List.foldl_nil]
      generalize (List.range m).foldl (fun (s : (Nat → K) × Nat) m =>
        if flag m then (Lu.put s.1 m (y s.2), s.2 + 1) else (Lu.put s.1 m 0, s.2)) (w, 0) = s at h2
      by_cases hf : flag m = true
      · have hlt := Krige.cnt_lt flag (show m < nsta by omega) hf
        rw [if_pos hf, if_pos hf, h s.2 (by omega), Krige.cnt, if_pos hf, h2]
        exact ⟨rfl, rfl⟩
      · rw [if_neg hf, if_neg hf, Krige.cnt, if_neg hf, h2]
        exact ⟨rfl, rfl⟩
  unfold Krige.scatter
  rw [(key nsta (Nat.le_refl _)).1]

/-! ### No `exit` where there is enough memory -/

/-- The computation does not end the process. -/
def Stays {α : Type} (m : C α) : Prop := m ≠ .error .exit

theorem Stays.bind {α β : Type} {m : C α} {f : α → C β} (h : Stays m) (hf : ∀ a, Stays (f a)) : Stays (m.bind f) := by
  match m, h with
  | .ok a, _ => exact hf a
  | .error .exit, h => exact absurd rfl h
  | .error (.fault f), _ => intro e; cases e

theorem Stays.map {α β : Type} {m : C α} {f : α → β} (h : Stays m) : Stays (m.map f) := by
  match m, h with
  | .ok a, _ => intro e; cases e
  | .error .exit, h => exact absurd rfl h
  | .error (.fault f), _ => intro e; cases e

theorem stays_ok {α : Type} {a : α} : Stays (.ok a : C α) := by intro e; cases e

theorem stays_fault {α : Type} {f : Fault} : Stays (.error (.fault f) : C α) := by intro e; cases e

theorem stays_if {α : Type} {p : Prop} [Decidable p] {a b : C α} (ha : Stays a) (hb : Stays b) : Stays (if p then a else b) := by
  split
  · exact ha
  · exact hb

theorem stays_rd {α : Type} (b : Buf α) (i : Int) : Stays (b.rd i) := by
  unfold Buf.rd
  refine stays_if stays_fault (stays_if stays_fault ?_)
  split
  · exact stays_fault
  · exact stays_ok

theorem stays_wr {α : Type} (b : Buf α) (i : Int) (v : α) : Stays (b.wr i v) :=
  stays_if stays_fault (stays_if stays_fault stays_ok)

theorem stays_free {α : Type} (b : Buf α) : Stays b.free := stays_if stays_fault stays_ok

theorem stays_int32 (n : Int) : Stays (int32 n) := by unfold int32; exact stays_if stays_ok stays_fault

theorem stays_use {α : Type} (o : Option α) : Stays (use o) := by
  cases o
  · exact stays_fault
  · exact stays_ok

theorem stays_rd2 {α : Type} (a : Buf (Buf α)) (i j : Int) : Stays (rd2 a i j) := (stays_rd a i).bind fun row => stays_rd row j

theorem stays_wr2 {α : Type} (a : Buf (Buf α)) (i j : Int) (v : α) : Stays (wr2 a i j v) :=
  (stays_rd a i).bind fun row => (stays_wr row j v).map

theorem stays_forUp {S : Type} (lo hi : Nat) (f : S → Nat → C S) (s : S) (h : ∀ s k, Stays (f s k)) : Stays (forUp lo hi f s) := by
  unfold forUp
  generalize List.range' lo (hi - lo) = l
  induction l generalizing s with
  | nil => exact stays_ok
  | cons k l ih => exact (h s k).bind fun t => ih t

theorem stays_forDown {S : Type} (n : Nat) (f : S → Nat → C S) (s : S) (h : ∀ s k, Stays (f s k)) : Stays (forDown n f s) := by
  induction n generalizing s with
  | zero => exact stays_ok
  | succ n ih => exact (h s n).bind fun t => ih t

theorem stays_forRet {S : Type} (rest i : Nat) (f : S → Nat → C (Option S)) (s : S) (h : ∀ s k, Stays (f s k)) :
    Stays (forRet rest i f s) := by
  induction rest generalizing i s with
  | zero => exact stays_ok
  | succ n ih =>
    refine (h s i).bind fun r => ?_
    cases r with
    | none => exact stays_ok
    | some t => exact ih (i + 1) t

theorem stays_malloc {α : Type} (n : Int) (h : 0 < n) : Stays (malloc (α := α) n) := by
  unfold malloc
  rw [if_pos h]
  exact stays_ok

section
variable {K : Type} {F : Fl K}

theorem stays_rowBig (n : Nat) (a : Buf (Buf K)) (i : Nat) : Stays (rowBig F n a i) :=
  stays_forUp _ _ _ _ fun s k => (stays_rd2 _ _ _).map

theorem stays_reduce (a : Buf (Buf K)) (i j lo hi : Nat) (sum : K) : Stays (reduce F a i j lo hi sum) :=
  stays_forUp _ _ _ _ fun s k => (stays_rd2 _ _ _).bind fun _ => (stays_rd2 _ _ _).map

theorem stays_column (n : Nat) (s : State K) (j : Nat) : Stays (column F n s j) := by
  refine (stays_forUp _ _ _ _ fun s k => (stays_rd2 _ _ _).bind fun _ => (stays_reduce _ _ _ _ _ _).bind fun _ => stays_wr2 _ _ _ _).bind
    fun a => ?_
  refine (stays_forUp _ _ _ _ fun s k => (stays_rd2 _ _ _).bind fun _ => (stays_reduce _ _ _ _ _ _).bind fun _ =>
    (stays_wr2 _ _ _ _).bind fun _ => (stays_rd _ _).map).bind fun f => ?_
  refine (stays_use _).bind fun m => ?_
  refine Stays.bind (stays_if ?_ stays_ok) fun p => ?_
  · exact (stays_forUp _ _ _ _ fun s k => (stays_rd2 _ _ _).bind fun _ => (stays_rd2 _ _ _).bind fun _ => (stays_wr2 _ _ _ _).bind fun _ =>
      stays_wr2 _ _ _ _).bind fun _ => (stays_rd _ _).bind fun _ => (stays_wr _ _ _).map
  · refine (stays_wr _ _ _).bind fun _ => (stays_rd2 _ _ _).bind fun _ => stays_if stays_ok (stays_if ?_ stays_ok)
    exact (stays_rd2 _ _ _).bind fun _ => (stays_forUp _ _ _ _ fun s k => (stays_rd2 _ _ _).bind fun _ => stays_wr2 _ _ _ _).map

theorem stays_ludcmp (n : Nat) (h : 0 < n) (a : Buf (Buf K)) (indx : Buf Int) : Stays (ludcmp F n a indx) := by
  refine (stays_malloc _ (by omega)).bind fun vv => ?_
  refine (stays_forRet _ _ _ _ fun s k => (stays_rowBig _ _ _).bind fun _ => stays_if stays_ok (stays_wr _ _ _).map).bind fun r => ?_
  cases r with
  | none => exact stays_ok
  | some vv =>
    refine (stays_forRet _ _ _ _ fun s k => stays_column n s k).bind fun r => ?_
    cases r with
    | none => exact stays_ok
    | some s => exact (stays_free _).map

theorem stays_lubksb (n : Nat) (a : Buf (Buf K)) (indx : Buf Int) : Stays (lubksb F n a indx) := by
  refine (stays_forUp _ _ _ _ fun s k => ?_).bind fun s => stays_forDown _ _ _ fun s k => ?_
  · exact (stays_rd _ _).bind fun _ => (stays_rd2 _ _ _).bind fun _ => (stays_rd2 _ _ _).bind fun _ => (stays_wr2 _ _ _ _).bind fun _ =>
      stays_if ((stays_reduce _ _ _ _ _ _).bind fun _ => (stays_wr2 _ _ _ _).map) (stays_wr2 _ _ _ _).map
  · exact (stays_rd2 _ _ _).bind fun _ => (stays_reduce _ _ _ _ _ _).bind fun _ => (stays_rd2 _ _ _).bind fun _ => stays_wr2 _ _ _ _

theorem stays_lusolv (n : Nat) (h : 0 < n) (a : Buf (Buf K)) (x : Buf K) : Stays (lusolv F n a x) := by
  refine (stays_malloc _ (by omega)).bind fun indx => (stays_ludcmp n h a indx).bind fun r => ?_
  match r with
  | none => exact stays_ok
  | some (a, indx, vv) =>
    exact (stays_lubksb n a indx).bind fun a => (stays_forUp _ _ _ _ fun s k => (stays_rd2 _ _ _).bind fun _ => stays_wr _ _ _).bind
      fun _ => (stays_free _).map

theorem stays_load (nsta ns : Nat) (ad dgrid : Buf K) (o : Int) (f : Buf Int) (a : Buf (Buf K)) :
    Stays (load F nsta ns ad dgrid o f a) := by
  refine (stays_forUp _ _ _ _ fun s k => (stays_rd _ _).bind fun _ => stays_if ?_ stays_ok).bind fun s =>
    (stays_wr2 _ _ _ _).bind fun _ => stays_wr2 _ _ _ _
  refine (stays_forUp _ _ _ _ fun s k => (stays_rd _ _).bind fun _ => stays_if ?_ stays_ok).bind fun _ => ?_
  · exact (stays_int32 _).bind fun _ => (stays_int32 _).bind fun _ => (stays_rd _ _).bind fun _ => (stays_wr2 _ _ _ _).map
  · exact (stays_wr2 _ _ _ _).bind fun _ => (stays_wr2 _ _ _ _).bind fun _ => (stays_rd _ _).bind fun _ => (stays_wr2 _ _ _ _).map

theorem stays_drop (nsta : Nat) (elev : Buf K) (f : Buf Int) (wcalc : Buf K) : Stays (drop F nsta elev f wcalc) :=
  stays_forUp _ _ _ _ fun s k => (stays_rd _ _).bind fun _ => stays_if ((stays_rd _ _).bind fun _ =>
    stays_if ((stays_rd _ _).bind fun _ => stays_if stays_ok stays_ok) stays_ok) stays_ok

theorem stays_scatter (nsta : Nat) (f : Buf Int) (wcalc w : Buf K) : Stays (scatter F nsta f wcalc w) :=
  stays_forUp _ _ _ _ fun s k => (stays_rd _ _).bind fun _ => stays_if ((stays_rd _ _).bind fun _ => (stays_wr _ _ _).map) (stays_wr _ _ _).map

theorem stays_sort (nsta : Nat) (dgrid : Buf K) (o : Int) (dist : Buf K) (idx : Buf Int) : Stays (sort F nsta dgrid o dist idx) := by
  refine (stays_forUp _ _ _ _ fun s k => (stays_rd _ _).bind fun _ => (stays_wr _ _ _).bind fun _ => (stays_wr _ _ _).map).bind fun s =>
    stays_forUp _ _ _ _ fun s i => stays_forUp _ _ _ _ fun s j => ?_
  exact (stays_rd _ _).bind fun _ => (stays_rd _ _).bind fun _ => stays_if ((stays_wr _ _ _).bind fun _ => (stays_wr _ _ _).bind fun _ =>
    (stays_rd _ _).bind fun _ => (stays_rd _ _).bind fun _ => (stays_wr _ _ _).bind fun _ => (stays_wr _ _ _).map) stays_ok

theorem stays_useFlags (nsta : Nat) (idx f : Buf Int) : Stays (useFlags nsta idx f) :=
  stays_forUp _ _ _ _ fun s k => (stays_rd _ _).bind fun _ => stays_wr _ _ _

theorem stays_dmatrix (nr nc : Nat) (h1 : 0 < nr) (h2 : 0 < nc) : Stays (dmatrix (K := K) nr nc) :=
  (stays_malloc _ (by omega)).bind fun _ => stays_forUp _ _ _ _ fun s k => (stays_malloc _ (by omega)).bind fun _ => stays_wr _ _ _

end

/-! ### The loop -/

/-- The result has a property; if the process ends, another holds. -/
def Fol {α : Type} (m : C α) (P : α → Prop) (E : Prop) : Prop :=
  match m with
  | .ok a => P a
  | .error .exit => E
  | .error (.fault _) => False

theorem Fol.bind {α β : Type} {m : C α} {f : α → C β} {Q : α → Prop} {P : β → Prop} {E : Prop} (h : Fol m Q False)
    (hf : ∀ a, Q a → Fol (f a) P E) : Fol (m.bind f) P E := by
  match m, h with
  | .ok a, h => exact hf a h

theorem Fol.map {α β : Type} {m : C α} {f : α → β} {Q : α → Prop} {P : β → Prop} {E : Prop} (h : Fol m Q False)
    (hf : ∀ a, Q a → P (f a)) : Fol (m.map f) P E := by
  match m, h with
  | .ok a, h => exact hf a h

theorem Fol.mono {α : Type} {m : C α} {Q P : α → Prop} {D E : Prop} (h : Fol m Q D) (hf : ∀ a, Q a → P a) (he : D → E) : Fol m P E := by
  match m, h with
  | .ok a, h => exact hf a h
  | .error .exit, h => exact he h

theorem fol {α : Type} {m : C α} {Q P : α → Prop} (hs : Safe m Q) (hr : Ret m P) (h : Stays m) : Fol m (fun a => Q a ∧ P a) False := by
  match m, hs, hr, h with
  | .ok a, hs, hr, _ => exact ⟨hs, hr a rfl⟩
  | .error .exit, _, _, h => exact h rfl

theorem fol_safe {α : Type} {m : C α} {Q : α → Prop} (hs : Safe m Q) (h : Stays m) : Fol m Q False := by
  match m, hs, h with
  | .ok a, hs, _ => exact hs
  | .error .exit, _, h => exact h rfl

theorem fol_ok {α : Type} {a : α} {P : α → Prop} {E : Prop} (h : P a) : Fol (.ok a) P E := h

theorem fol_exit {α : Type} {P : α → Prop} {E : Prop} (h : E) : Fol (α := α) (.error .exit) P E := h

theorem Fol.bind' {α β : Type} {m : C α} {f : α → C β} {Q : α → Prop} {P : β → Prop} {E : Prop} (h : Fol m Q E)
    (hf : ∀ a, Q a → Fol (f a) P E) : Fol (m.bind f) P E := by
  match m, h with
  | .ok a, h => exact hf a h
  | .error .exit, h => exact h

theorem Fol.and {α : Type} {m : C α} {Q P : α → Prop} {E : Prop} (h : Fol m Q E) (hs : Safe m P) : Fol m (fun a => Q a ∧ P a) E := by
  match m, h, hs with
  | .ok a, h, hs => exact ⟨h, hs⟩
  | .error .exit, h, _ => exact h

/-- The memory of the other model in which round `n` starts from the matrix `A n`. -/
structure Fits (A : Nat → Nat → Nat → K) (w : Buf K) (ns : Nat) (mem : Krige.Mem K) : Prop where
  a : ∀ n, n ≤ ns → mem.a n = A n
  lu : ∀ n, mem.lu n = clean
  w : mem.w = vecOf w

theorem rounds_ref {nsta : Nat} {ad dgrid elev : Buf K} {G o : Nat} (hi32 : nsta * nsta < 2147483648)
    (had : Vec ad (nsta * nsta) (nsta * nsta)) (hg : Vec dgrid G G) (ho : o + nsta ≤ G) (he : Vec elev nsta nsta) :
    ∀ (fuel ns : Nat) (s : Work K), WorkInv nsta s → cnt s.staflg.val nsta = ns → ns < fuel →
      Fol (rounds exact nsta ad dgrid (o : Int) elev fuel ns s)
        (fun t => ∃ A, ∀ mem, Fits A s.w ns mem → Krige.loop mem nsta (fun m n => vecOf ad (m * nsta + n)) (fun m => vecOf dgrid (o + m))
          (vecOf elev) fuel ns (flagOf s.staflg) = .weights (vecOf t.w))
        (∃ A, ∀ mem, Fits A s.w ns mem → Krige.loop mem nsta (fun m n => vecOf ad (m * nsta + n)) (fun m => vecOf dgrid (o + m))
          (vecOf elev) fuel ns (flagOf s.staflg) = .exit) := by
  intro fuel
  induction fuel with
  | zero => intro ns s _ _ h; omega
  | succ fuel ih =>
    intro ns s hs hns hfuel
    have hnn : ns ≤ nsta := by rw [← hns]; exact cnt_le _ _
    unfold rounds
    refine Fol.bind (fol (safe_load (elev := elev) hi32 had hg ho hs.f hns hs.a) (ret_load nsta ns ad dgrid o s.staflg s.a) (stays_load _ _ _ _ _ _ _))
      fun a ha => ?_
    obtain ⟨ha, hload⟩ := ha
    refine Fol.bind (fol (safe_lusolv (n := ns + 1) (by omega) (by omega) exact_ok ha.1 ha.2 (by omega) hs.c (by omega))
      (ret_lusolv (ns + 1) a s.wcalc) (stays_lusolv _ (by omega) _ _)) fun r hr => ?_
    obtain ⟨hr, hsolve⟩ := hr
    rw [hload] at hsolve
    cases r with
    | none =>
      refine fol_exit ⟨fun _ => matOf s.a, fun mem hm => ?_⟩
      rw [Krige.loop, hm.lu, hm.a ns (Nat.le_refl _), hsolve]
    | some t =>
      obtain ⟨ta, tx, -, -⟩ := hr t rfl
      obtain ⟨y, hy, hxy⟩ := hsolve
      have hcnt : ∀ i, i < Krige.cnt (flagOf s.staflg) nsta → y i = vecOf t.x i := fun i hi => by
        rw [cnt_flagOf, hns] at hi
        exact (hxy i (by omega)).symm
      refine Fol.bind (fol (safe_drop he hs.f hns tx) (ret_drop nsta elev s.staflg t.x) (stays_drop _ _ _ _)) fun d hd => ?_
      obtain ⟨hd, hdrop⟩ := hd
      rw [← drop_congr nsta (flagOf s.staflg) (vecOf elev) y (vecOf t.x) hcnt] at hdrop
      rcases hd with hd | ⟨m, hd, hm, hfm⟩
      · rw [if_pos (by omega)] at hdrop
        rw [if_neg (by omega)]
        refine Fol.map (fol (safe_scatter hs.f hns tx hs.w) (ret_scatter nsta s.staflg t.x s.w) (stays_scatter _ _ _ _)) fun w hw => ?_
        refine ⟨fun _ => matOf s.a, fun mem hm => ?_⟩
        rw [Krige.loop, hm.lu, hm.a ns (Nat.le_refl _), hy]
        simp only
        rw [hdrop]
        simp only
        rw [hw.2, hm.w, scatter_congr nsta (flagOf s.staflg) y (vecOf t.x) _ hcnt]
      · rw [if_neg (by omega), hd, Int.toNat_natCast] at hdrop
        rw [if_pos (by omega), hd]
        refine Fol.bind (fol (Vec.safe_wr hs.f m 0 hm) (ret_setFlag s.staflg (m : Int) 0) (stays_wr _ _ _)) fun f hf => ?_
        obtain ⟨hf, hflag⟩ := hf
        have hdec := cnt_drop s.staflg.val f.val m nsta hm hfm hf.2
        have hflag' : flagOf f = Lu.put (flagOf s.staflg) m false := by rw [hflag]; rfl
        have step : ∀ A mem, Fits (fun n => if n = ns then matOf s.a else A n) s.w ns mem →
            Fits A s.w (ns - 1) mem ∧ Krige.loop mem nsta (fun m n => vecOf ad (m * nsta + n)) (fun m => vecOf dgrid (o + m))
              (vecOf elev) (fuel + 1) ns (flagOf s.staflg) = Krige.loop mem nsta (fun m n => vecOf ad (m * nsta + n))
                (fun m => vecOf dgrid (o + m)) (vecOf elev) fuel (ns - 1) (flagOf f) := by
          intro A mem hm
          refine ⟨⟨fun n hn => ?_, hm.lu, hm.w⟩, ?_⟩
          · rw [hm.a n (by omega), if_neg (by omega)]
          · rw [Krige.loop, hm.lu, hm.a ns (Nat.le_refl _), if_pos rfl, hy]
            simp only
            rw [hdrop]
            simp only
            rw [hflag']
        refine (ih (ns - 1) ⟨t.a, f, t.x, s.w⟩ ⟨ta.1, hf.1, ⟨tx.live, tx.size, fun i hi => by omega⟩, hs.w⟩ (by simp only; omega) (by omega)).mono
          (fun u hu => ?_) fun hu => ?_
        · obtain ⟨A, hA⟩ := hu
          refine ⟨fun n => if n = ns then matOf s.a else A n, fun mem hm => ?_⟩
          obtain ⟨h1, h2⟩ := step A mem hm
          rw [h2]
          exact hA mem h1
        · obtain ⟨A, hA⟩ := hu
          refine ⟨fun n => if n = ns then matOf s.a else A n, fun mem hm => ?_⟩
          obtain ⟨h1, h2⟩ := step A mem hm
          rw [h2]
          exact hA mem h1

theorem foldl_put_true (l : List Nat) (g : Nat → Nat) (f : Nat → Bool) (nsta m : Nat) (hm : nsta ≤ m) (h : ∀ i ∈ l, g i < nsta) :
    (l.foldl (fun f m => Lu.put f (g m) true) f) m = f m := by
  induction l generalizing f with
  | nil => rfl
  | cons a l ih =>
    rw [List.foldl_cons, ih _ fun i hi => h i (by simp [hi])]
    have := h a (by simp)
    unfold Lu.put
    rw [if_neg (by omega)]

theorem krige_ref {nsta : Nat} {ad dgrid elev w : Buf K} {G o : Nat} (hpos : 0 < nsta) (hi32 : nsta * nsta < 2147483648)
    (hn32 : nsta + 2 < 2147483648) (had : Vec ad (nsta * nsta) (nsta * nsta)) (hg : Vec dgrid G G) (ho : o + nsta ≤ G)
    (he : Vec elev nsta nsta) (hw : Vec w (nsta + 1) 0) :
    Fol (krige exact nsta ad dgrid (o : Int) elev w)
      (fun e => ∃ mem, Krige.krige mem nsta (fun m n => vecOf ad (m * nsta + n)) (fun m => vecOf dgrid (o + m)) (vecOf elev) =
        .weights (vecOf e.w))
      (∃ mem, Krige.krige mem nsta (fun m n => vecOf ad (m * nsta + n)) (fun m => vecOf dgrid (o + m)) (vecOf elev) = .exit) := by
  unfold krige
  refine Fol.bind (fol_safe (safe_malloc (α := K) nsta) (stays_malloc _ (by omega))) fun dist hdist => ?_
  refine Fol.bind (fol_safe (safe_malloc (α := Int) nsta) (stays_malloc _ (by omega))) fun idx hidx => ?_
  refine Fol.bind (fol_safe (safe_sort (F := exact) hg ho (n := nsta) ⟨hdist.2.2, by omega, fun i hi => by omega⟩
    ⟨hidx.2.2, by omega, fun i hi => by omega⟩) (stays_sort _ _ _ _ _)) fun di hdi => ?_
  refine Fol.bind (fol_safe (safe_malloc (α := Int) nsta) (stays_malloc _ (by omega))) fun staflg hsta => ?_
  refine Fol.bind (fol_safe (safe_useFlags hdi.2 ⟨hsta.2.2, by omega, fun i hi => by omega⟩) (stays_useFlags _ _ _)) fun f hf => ?_
  have i1 := safe_int32N (nsta + 2) hn32
  rw [Int.natCast_add] at i1
  refine Fol.bind (fol_safe i1 (stays_int32 _)) fun _ _ => ?_
  refine Fol.bind (fol_safe (safe_dmatrix (K := K) (nsta + 1) (nsta + 2)) (stays_dmatrix _ _ (by omega) (by omega))) fun a ha => ?_
  refine Fol.bind (fol_safe (safe_malloc (α := K) ((nsta : Int) + 1)) (stays_malloc _ (by omega))) fun wcalc hwc => ?_
  let s0 : Work K := ⟨a, f, wcalc, w⟩
  have hs0 : WorkInv nsta s0 := ⟨ha, hf.1, ⟨hwc.2.2, by simp only [s0]; omega, fun i hi => by omega⟩, hw⟩
  have hflag : ∀ mem : Krige.Mem K, mem.flags = flagOf f → Krige.useFlags nsta (fun m => vecOf dgrid (o + m)) mem.flags = flagOf f := by
    intro mem hm
    funext m
    by_cases hlt : m < nsta
    · rw [Krige.useFlags_all nsta _ _ m hlt]
      unfold flagOf
      rw [hf.2.2 m hlt]
      rfl
    · obtain ⟨p, hp, hfix⟩ := Krige.sort_perm nsta (fun m => vecOf dgrid (o + m))
      unfold Krige.useFlags
      rw [hp, foldl_put_true _ _ _ nsta m (by omega), hm]
      intro i hi
      rw [List.mem_range] at hi
      by_contra hc
      have := p.injective (hfix (p i) (by omega))
      omega
  refine Fol.bind' (((rounds_ref hi32 had hg ho he (nsta + 1) nsta s0 hs0 hf.2.1 (by omega)).and
    (safe_rounds exact_ok hi32 had hg ho he (nsta + 1) nsta s0 hs0 hf.2.1 (by omega))).mono (P := fun t =>
      (∃ mem, Krige.krige mem nsta (fun m n => vecOf ad (m * nsta + n)) (fun m => vecOf dgrid (o + m)) (vecOf elev) =
        .weights (vecOf t.w)) ∧ WorkInv nsta t) (fun t ht => ?_) fun hE => ?_) fun t ht => ?_
  · obtain ⟨⟨A, hA⟩, ht, -⟩ := ht
    refine ⟨⟨⟨A, fun _ => clean, flagOf f, vecOf w⟩, ?_⟩, ht⟩
    have := hA ⟨A, fun _ => clean, flagOf f, vecOf w⟩ ⟨fun _ _ => rfl, fun _ => rfl, rfl⟩
    unfold Krige.krige
    rw [hflag _ rfl]
    exact this
  · obtain ⟨A, hA⟩ := hE
    refine ⟨⟨A, fun _ => clean, flagOf f, vecOf w⟩, ?_⟩
    have := hA ⟨A, fun _ => clean, flagOf f, vecOf w⟩ ⟨fun _ _ => rfl, fun _ => rfl, rfl⟩
    unfold Krige.krige
    rw [hflag _ rfl]
    exact this
  · obtain ⟨hres, ht⟩ := ht
    refine Fol.bind (fol_safe (safe_free hdi.1.live) (stays_free _)) fun dist _ => ?_
    refine Fol.bind (fol_safe (safe_free hdi.2.1.live) (stays_free _)) fun idx _ => ?_
    refine Fol.bind (fol_safe (safe_free ht.f.live) (stays_free _)) fun staflg _ => ?_
    refine Fol.bind (fol_safe (safe_free ht.c.live) (stays_free _)) fun wcalc _ => ?_
    refine Fol.bind (fol_safe (safe_freeRows ht.a) (stays_forUp _ _ _ _ fun s k => (stays_rd _ _).bind fun _ => (stays_free _).map)) fun a ha => ?_
    exact Fol.map (fol_safe (safe_free ha.1) (stays_free _)) fun a ha => hres

/-! ### The grid -/

/-- One turn of the loop of `krigeGrid`. -/
def cellStep (nsta : Nat) (ad dgrid elev : Buf K) (s : Buf K × Buf K) (i : Nat) : C (Buf K × Buf K) :=
  (int32 (i * nsta)).bind fun off =>
    (krige exact nsta ad dgrid off elev s.1).bind fun e =>
      (forUp 0 nsta (fun (weights : Buf K) j => (e.w.rd j).bind fun v => (int32 (i * nsta)).bind fun p =>
        (int32 (p + j)).bind fun p => weights.wr p v) s.2).map fun weights => (e.w, weights)

/-- The weights that the other model gives for a cell. -/
def Weights (nsta : Nat) (ad dgrid elev : Buf K) (cell : Nat) (w : Nat → K) : Prop :=
  ∃ mem, Krige.krige mem nsta (fun m n => vecOf ad (m * nsta + n)) (fun m => vecOf dgrid (cell * nsta + m)) (vecOf elev) = .weights w

/-- The other model ends the process at a cell. -/
def Exits (nsta : Nat) (ad dgrid elev : Buf K) (cell : Nat) : Prop :=
  ∃ mem, Krige.krige mem nsta (fun m n => vecOf ad (m * nsta + n)) (fun m => vecOf dgrid (cell * nsta + m)) (vecOf elev) = .exit

theorem cell_ref {nsta : Nat} {ad dgrid elev : Buf K} {G : Nat} (hpos : 0 < nsta) (hi32 : nsta * nsta < 2147483648)
    (hn32 : nsta + 2 < 2147483648) (had : Vec ad (nsta * nsta) (nsta * nsta)) (hg : Vec dgrid G G) (he : Vec elev nsta nsta)
    (s : Buf K × Buf K) (i : Nat) (hs1 : Vec s.1 (nsta + 1) 0) (hs2 : Vec s.2 G 0) (hiG : i * nsta + nsta ≤ G)
    (hi : i * nsta + nsta ≤ 2147483648) :
    Fol (cellStep nsta ad dgrid elev s i) (fun t => Vec t.1 (nsta + 1) 0 ∧ Vec t.2 G 0 ∧ (∃ w, Weights nsta ad dgrid elev i w ∧
      ∀ j, j < nsta → t.2.val (i * nsta + j) = some (w j)) ∧
      ∀ k, k < i * nsta → t.2.val k = s.2.val k) (Exits nsta ad dgrid elev i) := by
  unfold cellStep
  have i1 := safe_int32N (i * nsta) (by omega)
  rw [Int.natCast_mul] at i1
  refine Fol.bind (fol_safe i1 (stays_int32 _)) fun off e => ?_
  subst e
  have hk := (krige_ref hpos hi32 hn32 had hg (o := i * nsta) hiG he hs1).and
    (safe_krige exact_ok hi32 hn32 had hg (o := i * nsta) hiG he hs1)
  rw [Int.natCast_mul] at hk
  refine Fol.bind' hk fun e hE => ?_
  obtain ⟨⟨mem, hmem⟩, -, hw⟩ := hE
  refine Fol.map (Q := fun v => Vec v G 0 ∧ (∀ j, j < nsta → v.val (i * nsta + j) = some (vecOf e.w j)) ∧
      ∀ k, k < i * nsta → v.val k = s.2.val k) ?_ fun v hv => ⟨⟨hw.live, hw.size, fun i hi => by omega⟩, hv.1, ⟨_, ⟨mem, hmem⟩, hv.2.1⟩, hv.2.2⟩
  refine fol_safe (safe_forUp 0 nsta _ s.2 (fun j (v : Buf K) => Vec v G 0 ∧ (∀ k, k < j → v.val (i * nsta + k) = some (vecOf e.w k)) ∧
      ∀ k, k < i * nsta → v.val k = s.2.val k) (Nat.zero_le _) ⟨hs2, fun k hk => by omega, fun k _ => rfl⟩ fun j v _ hj hI => ?_)
    (stays_forUp _ _ _ _ fun s k => (stays_rd _ _).bind fun _ => (stays_int32 _).bind fun _ => (stays_int32 _).bind fun _ => stays_wr _ _ _)
  refine Safe.bind (hw.safe_rd j hj (by omega)) fun x hx => ?_
  refine Safe.bind i1 fun p e => ?_
  subst e
  have i2 := safe_int32N (i * nsta + j) (by omega)
  rw [Int.natCast_add, Int.natCast_mul] at i2
  refine Safe.bind i2 fun p e => ?_
  subst e
  have h3 := hI.1.safe_wr (i * nsta + j) x (by omega)
  rw [Int.natCast_add, Int.natCast_mul] at h3
  refine h3.mono fun c hc => ⟨hc.1, fun k hk => ?_, fun k hk => ?_⟩
  · rw [hc.2]
    by_cases e : k = j
    · subst e
      rw [if_pos rfl]
      unfold vecOf
      rw [hx]
      rfl
    · rw [if_neg (by omega)]
      exact hI.2.1 k (by omega)
  · rw [hc.2, if_neg (by omega)]
    exact hI.2.2 k hk

theorem fol_forUp {S : Type} (n : Nat) (f : S → Nat → C S) (s : S) (I : Nat → S → Prop) (E : Prop) (h0 : I 0 s)
    (hs : ∀ k s, k < n → I k s → Fol (f s k) (I (k + 1)) E) : Fol (forUp 0 n f s) (I n) E := by
  have key : ∀ rest lo s, lo + rest = n → I lo s → Fol ((List.range' lo rest).foldlM f s) (I n) E := by
    intro rest
    induction rest with
    | zero => intro lo s e h; simp at e; subst e; exact fol_ok h
    | succ rest ih =>
      intro lo s e h
      rw [List.range'_succ, List.foldlM_cons]
      exact Fol.bind' (hs lo s (by omega) h) fun t ht => ih (lo + 1) t (by omega) ht
  exact key n 0 s (by omega) h0

theorem grid_ref {nsta : Nat} {ad dgrid elev weights : Buf K} {G : Nat} (hpos : 0 < nsta) (hi32 : nsta * nsta < 2147483648)
    (hn32 : nsta + 2 < 2147483648) (had : Vec ad (nsta * nsta) (nsta * nsta)) (hg : Vec dgrid G G) (he : Vec elev nsta nsta)
    (hw : Vec weights G 0) (M : Nat) (hMG : M * nsta ≤ G) (hM : M * nsta ≤ 2147483648) :
    Fol (forUp 0 M (cellStep nsta ad dgrid elev) (⟨nsta + 1, true, fun _ => none⟩, weights))
      (fun s => (Vec s.1 (nsta + 1) 0 ∧ Vec s.2 G 0) ∧ ∀ i, i < M → ∃ w, Weights nsta ad dgrid elev i w ∧
        ∀ j, j < nsta → s.2.val (i * nsta + j) = some (w j))
      (∃ i, i < M ∧ Exits nsta ad dgrid elev i) := by
  refine fol_forUp M _ _ (fun k (s : Buf K × Buf K) => (Vec s.1 (nsta + 1) 0 ∧ Vec s.2 G 0) ∧ ∀ i, i < k → ∃ w, Weights nsta ad dgrid elev i w ∧
        ∀ j, j < nsta → s.2.val (i * nsta + j) = some (w j)) _ ⟨⟨⟨rfl, rfl, fun i hi => by omega⟩, hw⟩, fun i hi => by omega⟩ fun k s hk hI => ?_
  have hle : k * nsta + nsta ≤ M * nsta := by
    have : (k + 1) * nsta ≤ M * nsta := Nat.mul_le_mul_right _ (by omega)
    rwa [Nat.add_mul, Nat.one_mul] at this
  refine (cell_ref hpos hi32 hn32 had hg he s k hI.1.1 hI.1.2 (by omega) (by omega)).mono (fun t ht => ⟨⟨ht.1, ht.2.1⟩, fun i hi => ?_⟩)
    fun h => ⟨k, hk, h⟩
  by_cases e : i = k
  · subst e
    exact ht.2.2.1
  · obtain ⟨w, h1, h2⟩ := hI.2 i (by omega)
    refine ⟨w, h1, fun j hj => ?_⟩
    have : i * nsta + nsta ≤ k * nsta := by
      have : (i + 1) * nsta ≤ k * nsta := Nat.mul_le_mul_right _ (by omega)
      rwa [Nat.add_mul, Nat.one_mul] at this
    rw [ht.2.2.2 _ (by omega)]
    exact h2 j hj

end Verif.KrigeMem
