import Verif.CMem

/-!
Rules for computations with checked memory.
-/

namespace Verif.CMem

/-- No fault, and the result has a property. -/
def Safe {α : Type} (m : C α) (Q : α → Prop) : Prop :=
  match m with
  | .ok a => Q a
  | .error .exit => True
  | .error (.fault _) => False

theorem Safe.mono {α : Type} {m : C α} {Q R : α → Prop} (h : Safe m Q) (hr : ∀ a, Q a → R a) : Safe m R := by
  unfold Safe at *
  split <;> simp_all

theorem Safe.bind {α β : Type} {m : C α} {f : α → C β} {Q : α → Prop} {R : β → Prop} (h : Safe m Q)
    (hf : ∀ a, Q a → Safe (f a) R) : Safe (m.bind f) R := by
  match m, h with
  | .ok a, h => exact hf a h
  | .error .exit, _ => trivial

theorem Safe.map {α β : Type} {m : C α} {f : α → β} {Q : α → Prop} {R : β → Prop} (h : Safe m Q)
    (hf : ∀ a, Q a → R (f a)) : Safe (m.map f) R := by
  match m, h with
  | .ok a, h => exact hf a h
  | .error .exit, _ => trivial

theorem safe_ok {α : Type} {a : α} {Q : α → Prop} (h : Q a) : Safe (.ok a) Q := h

theorem safe_exit {α : Type} {Q : α → Prop} : Safe (α := α) (.error .exit) Q := trivial

theorem safe_forUp {S : Type} (lo hi : Nat) (f : S → Nat → C S) (s : S) (I : Nat → S → Prop) (hlh : lo ≤ hi) (h0 : I lo s)
    (hs : ∀ k s, lo ≤ k → k < hi → I k s → Safe (f s k) (I (k + 1))) : Safe (forUp lo hi f s) (I hi) := by
  unfold forUp
  obtain ⟨n, rfl⟩ := Nat.exists_eq_add_of_le hlh
  rw [Nat.add_sub_cancel_left]
  clear hlh
  induction n generalizing lo s with
  | zero => exact safe_ok h0
  | succ n ih =>
    rw [List.range'_succ, List.foldlM_cons]
    refine Safe.bind (hs lo s (Nat.le_refl _) (by omega) h0) fun t ht => ?_
    have := ih (lo + 1) t ht fun k u h1 h2 => hs k u (by omega) (by omega)
    rw [show lo + 1 + n = lo + (n + 1) by omega] at this
    exact this

theorem safe_forDown {S : Type} (n : Nat) (f : S → Nat → C S) (s : S) (I : Nat → S → Prop) (h0 : I n s)
    (hs : ∀ k s, k < n → I (k + 1) s → Safe (f s k) (I k)) : Safe (forDown n f s) (I 0) := by
  induction n generalizing s with
  | zero => exact safe_ok h0
  | succ n ih =>
    exact Safe.bind (hs n s (by omega) h0) fun t ht => ih t ht fun k u h1 => hs k u (by omega)

theorem safe_forRet {S : Type} (rest i : Nat) (f : S → Nat → C (Option S)) (s : S) (I : Nat → S → Prop) (h0 : I i s)
    (hs : ∀ k s, i ≤ k → k < i + rest → I k s → Safe (f s k) fun r => ∀ t, r = some t → I (k + 1) t) :
    Safe (forRet rest i f s) fun r => ∀ t, r = some t → I (i + rest) t := by
  induction rest generalizing i s with
  | zero => exact safe_ok fun t e => by cases e; exact h0
  | succ n ih =>
    refine Safe.bind (hs i s (Nat.le_refl _) (by omega) h0) fun r hr => ?_
    cases r with
    | none => exact safe_ok fun t e => by cases e
    | some t =>
      have := ih (i + 1) t (hr t rfl) fun k u h1 h2 => hs k u (by omega) (by omega)
      rw [show i + 1 + n = i + (n + 1) by omega] at this
      exact this

theorem safe_malloc {α : Type} (n : Int) : Safe (malloc (α := α) n) fun b =>
    0 < n ∧ (b.size : Int) = n ∧ b.live = true := by
  unfold malloc
  by_cases h : 0 < n
  · rw [if_pos h]; exact ⟨h, by simp; omega, rfl⟩
  · rw [if_neg h]; trivial

theorem safe_rd {α : Type} {b : Buf α} {i : Int} (hl : b.live = true) (h0 : 0 ≤ i) (h1 : i < b.size)
    (hv : (b.val i.toNat).isSome) : Safe (b.rd i) fun v => b.val i.toNat = some v := by
  unfold Buf.rd
  rw [if_neg (by rw [hl]; decide), if_neg (by omega)]
  obtain ⟨v, hv⟩ := Option.isSome_iff_exists.1 hv
  rw [hv]
  exact rfl

theorem safe_wr {α : Type} {b : Buf α} {i : Int} {v : α} (hl : b.live = true) (h0 : 0 ≤ i) (h1 : i < b.size) :
    Safe (b.wr i v) fun c => c.live = true ∧ c.size = b.size ∧ ∀ k, c.val k = if k = i.toNat then some v else b.val k := by
  unfold Buf.wr
  rw [if_neg (by rw [hl]; decide), if_neg (by omega)]
  exact ⟨hl, rfl, fun k => rfl⟩

theorem safe_free {α : Type} {b : Buf α} (hl : b.live = true) :
    Safe b.free fun c => c.live = false ∧ c.size = b.size ∧ c.val = b.val := by
  unfold Buf.free
  rw [if_neg (by rw [hl]; decide)]
  exact ⟨rfl, rfl, rfl⟩

theorem safe_int32N (n : Nat) (h : n < 2147483648) : Safe (int32 (n : Int)) fun m => m = (n : Int) := by
  have h1 : (-2 ^ 31 : Int) ≤ (n : Int) := by omega
  have h2 : (n : Int) < 2 ^ 31 := by omega
  unfold int32
  rw [if_pos ⟨h1, h2⟩]
  exact safe_ok rfl

/-! ### Matrices -/

/-- The element. -/
def get {α : Type} (a : Buf (Buf α)) (i j : Nat) : Option α := (a.val i).bind fun row => row.val j

/-- `a` is a matrix with `R` rows of `N` elements. -/
structure Mat {α : Type} (a : Buf (Buf α)) (R N : Nat) : Prop where
  live : a.live = true
  size : a.size = R
  row : ∀ i, i < R → ∃ r, a.val i = some r ∧ r.live = true ∧ r.size = N

theorem safe_rd2 {α : Type} {a : Buf (Buf α)} {R N : Nat} (hm : Mat a R N) {i j : Int} (hi0 : 0 ≤ i) (hi : i < R)
    (hj0 : 0 ≤ j) (hj : j < N) (hv : (get a i.toNat j.toNat).isSome) :
    Safe (rd2 a i j) fun v => get a i.toNat j.toNat = some v := by
  obtain ⟨r, h1, h2, h3⟩ := hm.row i.toNat (by omega)
  have hg : get a i.toNat j.toNat = r.val j.toNat := by unfold get; rw [h1]; rfl
  rw [hg] at hv ⊢
  unfold rd2
  refine Safe.bind (Q := fun v => v = r) ?_ fun v e => ?_
  · refine (safe_rd hm.live hi0 (by rw [hm.size]; exact hi) (by rw [h1]; rfl)).mono fun v e => ?_
    rw [h1] at e
    exact (Option.some.inj e).symm
  · subst e
    exact safe_rd h2 hj0 (by rw [h3]; exact hj) hv

theorem safe_wr2 {α : Type} {a : Buf (Buf α)} {R N : Nat} (hm : Mat a R N) {i j : Int} (v : α) (hi0 : 0 ≤ i) (hi : i < R)
    (hj0 : 0 ≤ j) (hj : j < N) :
    Safe (wr2 a i j v) fun b => Mat b R N ∧
      ∀ r c, get b r c = if r = i.toNat ∧ c = j.toNat then some v else get a r c := by
  obtain ⟨r, h1, h2, h3⟩ := hm.row i.toNat (by omega)
  unfold wr2
  refine Safe.bind (Q := fun v => v = r) ?_ fun w e => ?_
  · refine (safe_rd hm.live hi0 (by rw [hm.size]; exact hi) (by rw [h1]; rfl)).mono fun v e => ?_
    rw [h1] at e
    exact (Option.some.inj e).symm
  · subst e
    refine Safe.map (safe_wr h2 hj0 (by rw [h3]; exact hj)) fun row ⟨k1, k2, k3⟩ => ⟨⟨hm.live, hm.size, fun k hk => ?_⟩, fun r c => ?_⟩
    · by_cases e : k = i.toNat
      · exact ⟨row, by simp [e], k1, by rw [k2, h3]⟩
      · obtain ⟨q, hq⟩ := hm.row k hk
        exact ⟨q, by simp [e, hq.1], hq.2⟩
    · unfold get
      by_cases e : r = i.toNat
      · subst e
        simp [h1, k3]
      · simp [e]

end Verif.CMem
