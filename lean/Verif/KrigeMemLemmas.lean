import Verif.KrigeMem
import Verif.CMemLemmas
import Mathlib.Tactic.Linarith

/-!
The kriging code with checked memory has no faults: the parts.
-/

namespace Verif.KrigeMem
open Verif.CMem
set_option linter.unusedVariables false

/-- Facts about zero and one; they hold for IEEE numbers. -/
structure Fl.Ok {K : Type} (F : Fl K) : Prop where
  absOne : F.abs F.one = F.one
  absZero : F.abs F.zero = F.zero
  ltZeroOne : F.lt F.zero F.one = true
  ltOneOne : F.lt F.one F.one = false
  ltOneZero : F.lt F.one F.zero = false
  ltZeroZero : F.lt F.zero F.zero = false
  eqZero : F.eq F.zero F.zero = true
  leOne : F.le F.zero (F.mul (F.div F.one F.one) F.one) = true

variable {K : Type} {F : Fl K}

/-- Rows below `n` and columns up to `n` are written. -/
def Full (n : Nat) (a : Buf (Buf K)) : Prop := ∀ r c, r < n → c ≤ n → (get a r c).isSome

theorem Full.write {n i j : Nat} {v : K} {a b : Buf (Buf K)} (h : Full n a)
    (hb : ∀ r c, get b r c = if r = i ∧ c = j then some v else get a r c) : Full n b := by
  intro r c hr hc
  rw [hb]
  split
  · rfl
  · exact h r c hr hc

/-- The vector has `N` elements and the first `n` are written. -/
structure Vec {α : Type} (b : Buf α) (N n : Nat) : Prop where
  live : b.live = true
  size : b.size = N
  val : ∀ i, i < n → (b.val i).isSome

theorem Vec.safe_rd {α : Type} {b : Buf α} {N n : Nat} (h : Vec b N n) (i : Nat) (hi : i < n) (hn : n ≤ N) :
    Safe (b.rd i) fun v => b.val i = some v := by
  have := CMem.safe_rd (b := b) (i := (i : Int)) h.live (by omega) (by rw [h.size]; omega) (by simpa using h.val i hi)
  simpa using this

theorem Vec.safe_wr {α : Type} {b : Buf α} {N n : Nat} (h : Vec b N n) (i : Nat) (v : α) (hi : i < N) :
    Safe (b.wr i v) fun c => Vec c N n ∧ ∀ k, c.val k = if k = i then some v else b.val k := by
  have := CMem.safe_wr (b := b) (i := (i : Int)) (v := v) h.live (by omega) (by rw [h.size]; omega)
  refine this.mono fun c ⟨h1, h2, h3⟩ => ?_
  have h3 : ∀ k, c.val k = if k = i then some v else b.val k := by simpa using h3
  refine ⟨⟨h1, by rw [h2, h.size], fun k hk => ?_⟩, h3⟩
  rw [h3]
  split
  · rfl
  · exact h.val k hk

/-- As `safe_rd2`, `safe_wr2`, for natural numbers. -/
theorem rdN {a : Buf (Buf K)} {R N : Nat} (hm : Mat a R N) (i j : Nat) (hi : i < R) (hj : j < N) (hv : (get a i j).isSome) :
    Safe (rd2 a i j) fun v => get a i j = some v := by
  have := safe_rd2 hm (i := (i : Int)) (j := (j : Int)) (by omega) (by omega) (by omega) (by omega) (by simpa using hv)
  simpa using this

theorem wrN {a : Buf (Buf K)} {R N : Nat} (hm : Mat a R N) (i j : Nat) (v : K) (hi : i < R) (hj : j < N) :
    Safe (wr2 a i j v) fun b => Mat b R N ∧ ∀ r c, get b r c = if r = i ∧ c = j then some v else get a r c := by
  have := safe_wr2 hm (i := (i : Int)) (j := (j : Int)) v (by omega) (by omega) (by omega) (by omega)
  simpa using this

/-! ### lusolv.c -/

section
variable {n R N : Nat} (hR : n ≤ R) (hN : n + 1 ≤ N)
include hR hN

theorem safe_rowBig {a : Buf (Buf K)} (hm : Mat a R N) (hf : Full n a) (i : Nat) (hi : i < n) :
    Safe (rowBig F n a i) fun _ => True :=
  safe_forUp 0 n _ _ (fun _ _ => True) (Nat.zero_le _) trivial fun k big _ hk _ =>
    Safe.map (rdN hm i k (by omega) (by omega) (hf i k hi (by omega))) fun _ _ => trivial

/-- The last row of a kriging matrix: ones and a zero on the diagonal. -/
def Border (F : Fl K) (n : Nat) (a : Buf (Buf K)) : Prop :=
  get a (n - 1) (n - 1) = some F.zero ∧ ∀ c, c < n - 1 → get a (n - 1) c = some F.one

theorem rowBig_border (hF : F.Ok) {a : Buf (Buf K)} (hm : Mat a R N) (hf : Full n a) (hb : Border F n a) (hn : 1 ≤ n) :
    Safe (rowBig F n a (n - 1)) fun big => big = if n = 1 then F.zero else F.one := by
  have := safe_forUp 0 n (fun big j => (rd2 a (n - 1 : Nat) j).map fun v => if F.lt big (F.abs v) then F.abs v else big) F.zero
    (fun k big => big = if k = 0 ∨ n = 1 then F.zero else F.one) (Nat.zero_le _) (by simp) (fun k big _ hk hI => by
      refine Safe.map (rdN hm (n - 1) k (by omega) (by omega) (hf _ k (by omega) (by omega))) fun v hv => ?_
      by_cases h1 : n = 1
      · have hk0 : k = 0 := by omega
        subst h1 hk0
        rw [hb.1] at hv
        cases hv
        simp [hI, hF.absZero]
      · rw [if_neg (by omega : ¬ (k + 1 = 0 ∨ n = 1))]
        by_cases hk0 : k = 0
        · subst hk0
          rw [hb.2 0 (by omega)] at hv
          cases hv
          simp [hI, hF.absOne, hF.ltZeroOne]
        · rw [if_neg (by omega)] at hI
          subst hI
          by_cases hk1 : k < n - 1
          · rw [hb.2 k hk1] at hv
            cases hv
            simp [hF.absOne]
          · rw [show k = n - 1 by omega, hb.1] at hv
            cases hv
            simp [hF.absZero, hF.ltOneZero])
  refine this.mono fun big hbig => ?_
  rw [hbig]
  by_cases h1 : n = 1
  · simp [h1]
  · rw [if_neg (by omega), if_neg h1]

theorem safe_scaling (hF : F.Ok) {a : Buf (Buf K)} {vv : Buf K} (hm : Mat a R N) (hf : Full n a) (hb : Border F n a) (hn : 1 ≤ n)
    (hv : Vec vv n 0) : Safe (scaling F n a vv) fun r => ∀ vv', r = some vv' →
      Vec vv' n n ∧ n ≠ 1 ∧ vv'.val (n - 1) = some (F.div F.one F.one) := by
  have := safe_forRet n 0 (fun (vv : Buf K) i => (rowBig F n a i).bind fun big =>
    if F.eq big F.zero then .ok none else (vv.wr i (F.div F.one big)).map some) vv
    (fun k vv => Vec vv n k ∧ (k = n → n ≠ 1 ∧ vv.val (n - 1) = some (F.div F.one F.one))) ⟨hv, fun h => absurd h (by omega)⟩
    (fun k vv _ hk hI => by
      have hstep : ∀ big, Safe (vv.wr k (F.div F.one big)) fun c => Vec c n (k + 1) ∧ c.val k = some (F.div F.one big) := by
        intro big
        refine (hI.1.safe_wr k (F.div F.one big) (by omega)).mono fun c ⟨hc, hv⟩ => ⟨⟨hc.live, hc.size, fun i hi => ?_⟩, by rw [hv, if_pos rfl]⟩
        rw [hv]
        split
        · rfl
        · exact hI.1.val i (by omega)
      by_cases hkn : k = n - 1
      · subst hkn
        refine Safe.bind (rowBig_border hR hN hF hm hf hb hn) fun big hbig => ?_
        by_cases h1 : n = 1
        · rw [if_pos h1] at hbig
          subst hbig
          rw [if_pos hF.eqZero]
          exact safe_ok fun t e => by cases e
        · rw [if_neg h1] at hbig
          subst hbig
          split
          · exact safe_ok fun t e => by cases e
          · exact Safe.map (hstep F.one) fun c hc t e => by cases e; exact ⟨hc.1, fun _ => ⟨h1, hc.2⟩⟩
      · refine Safe.bind (safe_rowBig hR hN hm hf k (by omega)) fun big _ => ?_
        split
        · exact safe_ok fun t e => by cases e
        · exact Safe.map (hstep big) fun c hc t e => by cases e; exact ⟨hc.1, fun h => absurd h (by omega)⟩)
  refine this.mono fun r hr vv' e => ?_
  have := hr vv' e
  rw [Nat.zero_add] at this
  exact ⟨this.1, this.2 rfl⟩

theorem safe_reduce {a : Buf (Buf K)} (hm : Mat a R N) (hf : Full n a) (i j lo hi : Nat) (sum : K) (hi' : i < n) (hj : j ≤ n)
    (hhi : hi ≤ n) (hlo : lo ≤ hi) : Safe (reduce F a i j lo hi sum) fun _ => True :=
  safe_forUp lo hi _ _ (fun _ _ => True) hlo trivial fun k s _ hk _ =>
    Safe.bind (rdN hm i k (by omega) (by omega) (hf i k hi' (by omega))) fun u _ =>
      Safe.map (rdN hm k j (by omega) (by omega) (hf k j (by omega) hj)) fun v _ => trivial

/-- A matrix of the given size whose part for the solver is written. -/
def Ready (n R N : Nat) (a : Buf (Buf K)) : Prop := Mat a R N ∧ Full n a

theorem Ready.wr {a : Buf (Buf K)} (h : Ready n R N a) (i j : Nat) (v : K) (hi : i < n) (hj : j ≤ n) :
    Safe (wr2 a i j v) (Ready n R N) :=
  (wrN h.1 i j v (by omega) (by omega)).mono fun b hb => ⟨hb.1, h.2.write hb.2⟩

theorem Ready.rd {a : Buf (Buf K)} (h : Ready n R N a) (i j : Nat) (hi : i < n) (hj : j ≤ n) :
    Safe (rd2 a i j) fun v => get a i j = some v :=
  rdN h.1 i j (by omega) (by omega) (h.2 i j hi hj)

theorem safe_upper {a : Buf (Buf K)} (h : Ready n R N a) (j : Nat) (hj : j < n) : Safe (upper F j a) (Ready n R N) :=
  safe_forUp 0 j _ _ (fun _ a => Ready n R N a) (Nat.zero_le _) h fun i a _ hi h =>
    Safe.bind (h.rd hR hN i j (by omega) (by omega)) fun sum _ =>
      Safe.bind (safe_reduce hR hN h.1 h.2 i j 0 i sum (by omega) (by omega) (by omega) (by omega)) fun sum _ =>
        h.wr hR hN i j sum (by omega) (by omega)

/-- `imax` is the number of a row. -/
def Row (n : Nat) (i : Option Int) : Prop := ∃ k : Nat, i = some (k : Int) ∧ k < n

theorem safe_search {a : Buf (Buf K)} {vv : Buf K} (h : Ready n R N a) (hv : Vec vv n n) (j : Nat) (hj : j < n) (big : K)
    (imax : Option Int) (hi : Row n imax) : Safe (forUp j n (searchRow F j vv) ⟨a, big, imax⟩) fun s => Ready n R N s.a ∧ Row n s.imax :=
  safe_forUp j n (searchRow F j vv) ⟨a, big, imax⟩ (fun _ s => Ready n R N s.a ∧ Row n s.imax) (by omega) ⟨h, hi⟩ fun i s _ hi h =>
    Safe.bind (h.1.rd hR hN i j (by omega) (by omega)) fun sum _ =>
      Safe.bind (safe_reduce hR hN h.1.1 h.1.2 i j 0 j sum (by omega) (by omega) (by omega) (by omega)) fun sum _ =>
        Safe.bind (h.1.wr hR hN i j sum (by omega) (by omega)) fun a ha =>
          Safe.map (hv.safe_rd i (by omega) (by omega)) fun v _ => by
            split
            · exact ⟨ha, i, rfl, hi⟩
            · exact ⟨ha, h.2⟩

/-- The first column: the last row has a one there, so that some row is chosen whatever the others hold. -/
theorem safe_search_first (hF : F.Ok) {a : Buf (Buf K)} {vv : Buf K} (h : Ready n R N a) (hv : Vec vv n n) (hn : 2 ≤ n)
    (ha : get a (n - 1) 0 = some F.one) (hvv : vv.val (n - 1) = some (F.div F.one F.one)) :
    Safe (forUp 0 n (searchRow F 0 vv) ⟨a, F.zero, none⟩) fun s => Ready n R N s.a ∧ Row n s.imax := by
  have := safe_forUp 0 n (searchRow F 0 vv) ⟨a, F.zero, none⟩ (fun k s => Ready n R N s.a ∧ (Row n s.imax ∨ k < n ∧ s.imax = none ∧
    s.big = F.zero ∧ get s.a (n - 1) 0 = some F.one)) (Nat.zero_le _) ⟨h, Or.inr ⟨by omega, rfl, rfl, ha⟩⟩ (fun i s _ hi hI => by
      obtain ⟨h, hI⟩ := hI
      refine Safe.bind (h.rd hR hN i 0 (by omega) (by omega)) fun sum hsum => ?_
      refine Safe.bind (Q := fun t => t = sum) (by unfold reduce forUp; exact safe_ok rfl) fun t ht => ?_
      subst ht
      refine Safe.bind (wrN h.1 i 0 t (by omega) (by omega)) fun b hb => ?_
      have hrb : Ready n R N b := ⟨hb.1, h.2.write hb.2⟩
      refine Safe.map (hv.safe_rd i (by omega) (by omega)) fun v hval => ?_
      by_cases hle : F.le s.big (F.mul v (F.abs t)) = true
      · rw [if_pos hle]
        exact ⟨hrb, Or.inl ⟨i, rfl, hi⟩⟩
      · rw [if_neg hle]
        refine ⟨hrb, ?_⟩
        rcases hI with hI | ⟨h1, h2, h3, h4⟩
        · exact Or.inl hI
        · by_cases hlast : i = n - 1
          · exfalso
            subst hlast
            rw [h4] at hsum
            cases hsum
            rw [hvv] at hval
            cases hval
            rw [h3, hF.absOne] at hle
            exact hle hF.leOne
          · refine Or.inr ⟨by omega, h2, h3, ?_⟩
            rw [hb.2, if_neg (by omega)]
            exact h4)
  refine this.mono fun s hs => ⟨hs.1, ?_⟩
  rcases hs.2 with h | ⟨h, -⟩
  · exact h
  · omega

theorem safe_swapRows {a : Buf (Buf K)} (h : Ready n R N a) (j m : Nat) (hj : j < n) (hm : m < n) :
    Safe (swapRows n j m a) (Ready n R N) :=
  safe_forUp 0 n _ _ (fun _ a => Ready n R N a) (Nat.zero_le _) h fun k a _ hk h =>
    Safe.bind (h.rd hR hN m k (by omega) (by omega)) fun dum _ =>
      Safe.bind (h.rd hR hN j k (by omega) (by omega)) fun v _ =>
        Safe.bind (h.wr hR hN m k v (by omega) (by omega)) fun a h => h.wr hR hN j k dum (by omega) (by omega)

/-- Rows in `indx`. -/
def Perm (n k : Nat) (indx : Buf Int) : Prop := Vec indx n k ∧ ∀ i, i < k → ∃ m : Nat, indx.val i = some (m : Int) ∧ m < n

/-- State before column `j`. -/
def ColInv (n R N j : Nat) (s : State K) : Prop :=
  Ready n R N s.a ∧ Vec s.vv n n ∧ Perm n j s.indx ∧ (0 < j → Row n s.imax)

theorem safe_column_rest {s : State K} {f : Search K} (j : Nat) (hj : j < n) (hf : Ready n R N f.a) (hi : Row n f.imax)
    (hv : Vec s.vv n n) (hp : Perm n j s.indx) :
    Safe ((use f.imax).bind fun imax =>
      (if (j : Int) ≠ imax then (swapRows n j imax f.a).bind fun a => (s.vv.rd j).bind fun v =>
        (s.vv.wr imax v).map fun vv => (a, vv) else .ok (f.a, s.vv)).bind fun (a, vv) =>
        (s.indx.wr j imax).bind fun indx => (rd2 a j j).bind fun p =>
          if F.eq p F.zero then .ok none
          else if j ≠ n - 1 then
            (rd2 a j j).bind fun p => (forUp (j + 1) n (fun a i => (rd2 a i j).bind fun v => wr2 a i j (F.mul v (F.div F.one p))) a).map
              fun a => some (⟨a, vv, indx, f.imax⟩ : State K)
          else .ok (some ⟨a, vv, indx, f.imax⟩)) fun r => ∀ t, r = some t → ColInv n R N (j + 1) t := by
  obtain ⟨m, e, hm⟩ := hi
  rw [e]
  show Safe (Except.bind (if (j : Int) ≠ (m : Int) then _ else _) _) _
  refine Safe.bind (Q := fun (p : Buf (Buf K) × Buf K) => Ready n R N p.1 ∧ Vec p.2 n n) ?_ fun p hp' => ?_
  · split
    · refine Safe.bind (safe_swapRows hR hN hf j m hj hm) fun a ha => ?_
      refine Safe.bind (hv.safe_rd j (by omega) (by omega)) fun v _ => ?_
      exact Safe.map (hv.safe_wr m v hm) fun c hc => ⟨ha, hc.1⟩
    · exact safe_ok ⟨hf, hv⟩
  · obtain ⟨a, vv⟩ := p
    obtain ⟨ha, hvv⟩ := hp'
    refine Safe.bind (hp.1.safe_wr j (m : Int) hj) fun indx hidx => ?_
    have hperm : Perm n (j + 1) indx := by
      have hval : ∀ i, i < j + 1 → ∃ m : Nat, indx.val i = some (m : Int) ∧ m < n := by
        intro i hi
        rw [hidx.2]
        by_cases hij : i = j
        · exact ⟨m, by rw [if_pos hij], hm⟩
        · rw [if_neg hij]
          exact hp.2 i (by omega)
      refine ⟨⟨hidx.1.live, hidx.1.size, fun i hi => ?_⟩, hval⟩
      obtain ⟨m, h1, _⟩ := hval i hi
      rw [h1]; rfl
    refine Safe.bind (ha.rd hR hN j j hj (by omega)) fun p _ => ?_
    split
    · exact safe_ok fun t e => by cases e
    · split
      · refine Safe.bind (ha.rd hR hN j j hj (by omega)) fun p _ => ?_
        refine Safe.map (safe_forUp (j + 1) n _ _ (fun _ a => Ready n R N a) (by omega) ha fun i a h1 h2 h => ?_) fun a ha t e => ?_
        · exact Safe.bind (h.rd hR hN i j h2 (by omega)) fun v _ => h.wr hR hN i j _ h2 (by omega)
        · cases e; exact ⟨ha, hvv, hperm, fun _ => ⟨m, rfl, hm⟩⟩
      · exact safe_ok fun t e => by cases e; exact ⟨ha, hvv, hperm, fun _ => ⟨m, rfl, hm⟩⟩

theorem safe_column {s : State K} (j : Nat) (hj0 : 0 < j) (hj : j < n) (h : ColInv n R N j s) :
    Safe (column F n s j) fun r => ∀ t, r = some t → ColInv n R N (j + 1) t := by
  obtain ⟨h1, h2, h3, h4⟩ := h
  unfold column
  refine Safe.bind (safe_upper hR hN h1 j hj) fun a ha => ?_
  refine Safe.bind (safe_search hR hN ha h2 j hj F.zero s.imax (h4 hj0)) fun f hf => ?_
  exact safe_column_rest hR hN j hj hf.1 hf.2 h2 h3

theorem safe_column_first (hF : F.Ok) {s : State K} (hn : 2 ≤ n) (h : ColInv n R N 0 s) (hi : s.imax = none)
    (ha : get s.a (n - 1) 0 = some F.one) (hvv : s.vv.val (n - 1) = some (F.div F.one F.one)) :
    Safe (column F n s 0) fun r => ∀ t, r = some t → ColInv n R N 1 t := by
  obtain ⟨h1, h2, h3, h4⟩ := h
  unfold column
  refine Safe.bind (Q := fun a => a = s.a) (by unfold upper forUp; exact safe_ok rfl) fun a e => ?_
  subst e
  rw [hi]
  refine Safe.bind (safe_search_first hR hN hF h1 h2 hn ha hvv) fun f hf => ?_
  exact safe_column_rest hR hN 0 (by omega) hf.1 hf.2 h2 h3

theorem safe_ludcmp (hF : F.Ok) {a : Buf (Buf K)} {indx : Buf Int} (h : Ready n R N a) (hb : Border F n a) (hn : 1 ≤ n)
    (hx : Vec indx n 0) : Safe (ludcmp F n a indx) fun r => ∀ t, r = some t →
      Ready n R N t.1 ∧ Perm n n t.2.1 ∧ t.2.2.live = false := by
  unfold ludcmp
  refine Safe.bind (safe_malloc (α := K) n) fun vv hvv => ?_
  refine Safe.bind (safe_scaling hR hN hF h.1 h.2 hb hn ⟨hvv.2.2, by omega, fun i hi => by omega⟩) fun r hr => ?_
  cases r with
  | none => exact safe_ok fun t e => by cases e
  | some vv =>
    obtain ⟨hv, hn1, hvv⟩ := hr vv rfl
    have h0 : ColInv n R N 0 (⟨a, vv, indx, none⟩ : State K) := ⟨h, hv, ⟨hx, fun i hi => by omega⟩, fun h => by omega⟩
    refine Safe.bind (safe_forRet n 0 (column F n) ⟨a, vv, indx, none⟩
      (fun j s => ColInv n R N j s ∧ (j = 0 → s = ⟨a, vv, indx, none⟩)) ⟨h0, fun _ => rfl⟩ fun j s _ hj hI => ?_) fun r hr => ?_
    · by_cases hj0 : j = 0
      · subst hj0
        have e := hI.2 rfl
        subst e
        exact (safe_column_first hR hN hF (by omega) h0 rfl (hb.2 0 (by omega)) hvv).mono fun r hr t e => ⟨hr t e, fun h => by omega⟩
      · exact (safe_column hR hN j (by omega) (by omega) hI.1).mono fun r hr t e => ⟨hr t e, fun h => by omega⟩
    · cases r with
      | none => exact safe_ok fun t e => by cases e
      | some s =>
        obtain ⟨⟨g1, g2, g3, -⟩, -⟩ := hr s rfl
        rw [Nat.zero_add] at g3
        exact Safe.map (safe_free g2.live) fun c hc t e => by cases e; exact ⟨g1, g3, hc.1⟩

theorem safe_lubksb {a : Buf (Buf K)} {indx : Buf Int} (h : Ready n R N a) (hp : Perm n n indx) :
    Safe (lubksb F n a indx) (Ready n R N) := by
  unfold lubksb
  refine Safe.bind (safe_forUp 0 n (forwardRow F n indx) (a, -1)
    (fun k s => Ready n R N s.1 ∧ (s.2 = -1 ∨ 0 ≤ s.2 ∧ s.2 ≤ k)) (Nat.zero_le _) ⟨h, Or.inl rfl⟩ fun i s _ hi hI => ?_) fun s hs => ?_
  · obtain ⟨hr, hii⟩ := hI
    unfold forwardRow
    refine Safe.bind (hp.1.safe_rd i hi (by omega)) fun ip hip => ?_
    obtain ⟨m, hm, hmn⟩ := hp.2 i hi
    rw [hm] at hip
    cases hip
    refine Safe.bind (hr.rd hR hN m n hmn (by omega)) fun sum _ => ?_
    refine Safe.bind (hr.rd hR hN i n hi (by omega)) fun v _ => ?_
    refine Safe.bind (hr.wr hR hN m n v hmn (by omega)) fun a ha => ?_
    split
    · refine Safe.bind (safe_reduce hR hN ha.1 ha.2 i n s.2.toNat i sum hi (by omega) (by omega) (by omega)) fun sum _ => ?_
      exact Safe.map (ha.wr hR hN i n sum hi (by omega)) fun a ha => ⟨ha, by simp only; omega⟩
    · refine Safe.map (ha.wr hR hN i n sum hi (by omega)) fun a ha => ⟨ha, ?_⟩
      simp only
      split <;> omega
  · refine safe_forDown n _ _ (fun _ a => Ready n R N a) hs.1 fun i a hi h => ?_
    unfold backRow
    refine Safe.bind (h.rd hR hN i n hi (by omega)) fun sum _ => ?_
    refine Safe.bind (safe_reduce hR hN h.1 h.2 i n (i + 1) n sum hi (by omega) (by omega) (by omega)) fun sum _ => ?_
    refine Safe.bind (h.rd hR hN i i hi (by omega)) fun d _ => ?_
    exact h.wr hR hN i n _ hi (by omega)

theorem safe_lusolv (hF : F.Ok) {a : Buf (Buf K)} {x : Buf K} {X p : Nat} (h : Ready n R N a) (hb : Border F n a) (hn : 1 ≤ n)
    (hx : Vec x X p) (hX : n ≤ X) : Safe (lusolv F n a x) fun r => ∀ t, r = some t →
      Ready n R N t.a ∧ Vec t.x X n ∧ t.vv.live = false ∧ t.indx.live = false := by
  unfold lusolv
  refine Safe.bind (safe_malloc (α := Int) n) fun indx hindx => ?_
  refine Safe.bind (safe_ludcmp hR hN hF h hb hn ⟨hindx.2.2, by omega, fun i hi => by omega⟩) fun r hr => ?_
  match r, hr with
  | none, _ => exact safe_ok fun t e => by cases e
  | some (a, indx, vv), hr =>
    obtain ⟨h1, h2, h3⟩ := hr _ rfl
    refine Safe.bind (safe_lubksb hR hN h1 h2) fun a ha => ?_
    refine Safe.bind (safe_forUp 0 n _ x (fun k x => Vec x X k) (Nat.zero_le _) ⟨hx.live, hx.size, fun i hi => by omega⟩ fun i x _ hi hI => ?_) fun x hx => ?_
    · refine Safe.bind (ha.rd hR hN i n hi (by omega)) fun v _ => ?_
      refine (hI.safe_wr i v (by omega)).mono fun c hc => ⟨hc.1.live, hc.1.size, fun k hk => ?_⟩
      rw [hc.2]
      split
      · rfl
      · exact hI.val k (by omega)
    · exact Safe.map (safe_free h2.1.live) fun c hc t e => by cases e; exact ⟨ha, hx, h3, hc.1⟩
end

/-! ### krige.c -/

theorem safe_dmatrix (nr nc : Nat) : Safe (dmatrix (K := K) nr nc) fun a => Mat a nr nc := by
  unfold dmatrix
  refine Safe.bind (safe_malloc (nr : Int)) fun m hm => ?_
  refine (safe_forUp 0 nr _ m (fun k (m : Buf (Buf K)) => m.live = true ∧ m.size = nr ∧
    ∀ i, i < k → ∃ r, m.val i = some r ∧ r.live = true ∧ r.size = nc) (Nat.zero_le _) ⟨hm.2.2, by omega, fun i hi => by omega⟩
    fun k m _ hk hI => ?_).mono fun a ha => ⟨ha.1, ha.2.1, ha.2.2⟩
  refine Safe.bind (safe_malloc (α := K) (nc : Int)) fun row hrow => ?_
  refine (safe_wr (b := m) (i := (k : Int)) hI.1 (by omega) (by omega)).mono fun c hc => ⟨hc.1, by omega, fun i hi => ?_⟩
  rw [hc.2.2]
  by_cases hik : i = k
  · exact ⟨row, by simp [hik], hrow.2.2, by omega⟩
  · rw [if_neg (by omega)]
    exact hI.2.2 i (by omega)

/-- `idx` holds the stations in some order. -/
def Order (n : Nat) (idx : Buf Int) : Prop :=
  Vec idx n n ∧ (∀ i, i < n → ∃ m : Nat, idx.val i = some (m : Int) ∧ m < n) ∧
    ∀ m : Nat, m < n → ∃ i, i < n ∧ idx.val i = some (m : Int)

theorem safe_exchange {n : Nat} {s : Buf K × Buf Int} (hd : Vec s.1 n n) (ho : Order n s.2) (i j : Nat) (hij : i < j) (hj : j < n) :
    Safe (exchange F i s j) fun t => Vec t.1 n n ∧ Order n t.2 := by
  unfold exchange
  refine Safe.bind (hd.safe_rd i (by omega) (by omega)) fun p _ => ?_
  refine Safe.bind (hd.safe_rd j (by omega) (by omega)) fun q _ => ?_
  split
  · refine Safe.bind (hd.safe_wr i q (by omega)) fun d1 h1 => ?_
    refine Safe.bind (h1.1.safe_wr j p (by omega)) fun d2 h2 => ?_
    obtain ⟨hv, hr, hs⟩ := ho
    refine Safe.bind (hv.safe_rd i (by omega) (by omega)) fun u hu => ?_
    refine Safe.bind (hv.safe_rd j (by omega) (by omega)) fun v hv' => ?_
    refine Safe.bind (hv.safe_wr i v (by omega)) fun x1 k1 => ?_
    refine Safe.map (k1.1.safe_wr j u (by omega)) fun x2 k2 => ?_
    refine ⟨h2.1, k2.1, fun k hk => ?_, fun m hm => ?_⟩
    · rw [k2.2, k1.2]
      by_cases e1 : k = j
      · rw [if_pos e1, ← hu]; exact hr i (by omega)
      · rw [if_neg e1]
        by_cases e2 : k = i
        · rw [if_pos e2, ← hv']; exact hr j (by omega)
        · rw [if_neg e2]; exact hr k hk
    · obtain ⟨k, hk, e⟩ := hs m hm
      by_cases e1 : k = i
      · subst e1
        refine ⟨j, hj, ?_⟩
        rw [k2.2, if_pos rfl, ← e, hu]
      · by_cases e2 : k = j
        · subst e2
          refine ⟨i, by omega, ?_⟩
          rw [k2.2, k1.2, if_neg (by omega), if_pos rfl, ← e, hv']
        · exact ⟨k, hk, by rw [k2.2, k1.2, if_neg e2, if_neg e1, e]⟩
  · exact safe_ok ⟨hd, ho⟩

theorem safe_rdOff {b : Buf K} {G : Nat} (hb : Vec b G G) (o m : Nat) (h : o + m < G) : Safe (b.rd ((o : Int) + (m : Int))) fun _ => True := by
  have := (hb.safe_rd (o + m) h (Nat.le_refl _)).mono (R := fun _ => True) fun _ _ => trivial
  rwa [Int.natCast_add] at this

theorem safe_sort {n G o : Nat} {dgrid : Buf K} (hg : Vec dgrid G G) (ho : o + n ≤ G) {dist : Buf K} {idx : Buf Int}
    (hd : Vec dist n 0) (hi : Vec idx n 0) : Safe (sort F n dgrid (o : Int) dist idx) fun t => Vec t.1 n n ∧ Order n t.2 := by
  unfold sort
  refine Safe.bind (safe_forUp 0 n _ (dist, idx) (fun k s => Vec s.1 n k ∧ Vec s.2 n 0 ∧ ∀ i, i < k → s.2.val i = some (i : Int))
    (Nat.zero_le _) ⟨hd, hi, fun i hi => by omega⟩ fun k s _ hk hI => ?_) fun s hs => ?_
  · refine Safe.bind (safe_rdOff hg o k (by omega)) fun d _ => ?_
    refine Safe.bind (hI.1.safe_wr k d hk) fun d1 h1 => ?_
    refine Safe.map (hI.2.1.safe_wr k (k : Int) hk) fun x1 k1 => ⟨⟨h1.1.live, h1.1.size, fun i hi => ?_⟩, k1.1, fun i hi => ?_⟩
    · rw [h1.2]
      split
      · rfl
      · exact hI.1.val i (by omega)
    · rw [k1.2]
      split
      · rename_i e; rw [e]
      · exact hI.2.2 i (by omega)
  · obtain ⟨h1, h2, h3⟩ := hs
    have ho : Order n s.2 := ⟨⟨h2.live, h2.size, fun i hi => by rw [h3 i hi]; rfl⟩, fun i hi => ⟨i, h3 i hi, hi⟩, fun i hi => ⟨i, hi, h3 i hi⟩⟩
    exact safe_forUp 0 n _ s (fun _ s => Vec s.1 n n ∧ Order n s.2) (Nat.zero_le _) ⟨h1, ho⟩ fun i s _ hi hI =>
      safe_forUp (i + 1) n _ s (fun _ s => Vec s.1 n n ∧ Order n s.2) (by omega) hI fun j s h1 h2 hI =>
        safe_exchange hI.1 hI.2 i j (by omega) h2

/-- The flags are written. -/
def Flags (n : Nat) (f : Buf Int) : Prop := Vec f n n

/-- The number of stations in use below `m`. -/
def cnt (v : Nat → Option Int) : Nat → Nat
  | 0 => 0
  | m + 1 => cnt v m + if v m = some 1 then 1 else 0

theorem cnt_succ (v : Nat → Option Int) (m : Nat) : cnt v (m + 1) = cnt v m + if v m = some 1 then 1 else 0 := rfl

theorem cnt_le (v : Nat → Option Int) (m : Nat) : cnt v m ≤ m := by
  induction m with
  | zero => exact Nat.le_refl _
  | succ m ih => unfold cnt; split <;> omega

theorem cnt_mono (v : Nat → Option Int) {m n : Nat} (h : m ≤ n) : cnt v m ≤ cnt v n := by
  induction n with
  | zero => have : m = 0 := by omega
            subst this; exact Nat.le_refl _
  | succ n ih =>
    by_cases e : m = n + 1
    · subst e; exact Nat.le_refl _
    · have := ih (by omega)
      rw [cnt_succ]; omega

theorem cnt_all (v : Nat → Option Int) (n : Nat) (h : ∀ i, i < n → v i = some 1) : cnt v n = n := by
  induction n with
  | zero => rfl
  | succ n ih =>
    rw [cnt_succ]
    rw [ih fun i hi => h i (by omega), if_pos (h n (by omega))]

theorem cnt_congr (v w : Nat → Option Int) (n : Nat) (h : ∀ i, i < n → v i = w i) : cnt v n = cnt w n := by
  induction n with
  | zero => rfl
  | succ n ih =>
    rw [cnt_succ, cnt_succ]
    rw [ih fun i hi => h i (by omega), h n (by omega)]

theorem cnt_drop (v w : Nat → Option Int) (k n : Nat) (hk : k < n) (hv : v k = some 1)
    (hw : ∀ i, w i = if i = k then some 0 else v i) : cnt w n + 1 = cnt v n := by
  induction n with
  | zero => omega
  | succ n ih =>
    rw [cnt_succ, cnt_succ]
    by_cases e : k = n
    · subst e
      rw [cnt_congr w v k fun i hi => by rw [hw, if_neg (by omega)], hv, hw]
      simp
    · have hwn : w n = v n := by rw [hw, if_neg (by omega)]
      rw [← ih (by omega), hwn]
      omega

theorem safe_useFlags {n : Nat} {idx staflg : Buf Int} (hi : Order n idx) (hf : Vec staflg n 0) :
    Safe (useFlags n idx staflg) fun f => Flags n f ∧ cnt f.val n = n ∧ ∀ m, m < n → f.val m = some 1 := by
  unfold useFlags
  obtain ⟨hv, hr, hs⟩ := hi
  refine (safe_forUp 0 n _ staflg (fun k f => Vec f n 0 ∧ ∀ i, i < k → ∀ m : Nat, idx.val i = some (m : Int) → f.val m = some 1)
    (Nat.zero_le _) ⟨hf, fun i hi => by omega⟩ fun k f _ hk hI => ?_).mono fun f hf => ?_
  · refine Safe.bind (hv.safe_rd k hk (by omega)) fun x hx => ?_
    obtain ⟨m, hm, hmn⟩ := hr k hk
    rw [hm] at hx
    cases hx
    refine (hI.1.safe_wr m 1 hmn).mono fun c hc => ⟨hc.1, fun i hi p hp => ?_⟩
    rw [hc.2]
    by_cases e : p = m
    · rw [if_pos e]
    · rw [if_neg e]
      refine hI.2 i ?_ p hp
      by_cases e2 : i = k
      · subst e2
        rw [hm] at hp
        have := Option.some.inj hp
        omega
      · omega
  · have h : ∀ m, m < n → f.val m = some 1 := fun m hm => by
      obtain ⟨i, hi, e⟩ := hs m hm
      exact hf.2 i hi m e
    exact ⟨⟨hf.1.live, hf.1.size, fun i hi => by rw [h i hi]; rfl⟩, cnt_all _ _ h, h⟩

section
variable {nsta ns : Nat}

theorem safe_loadRow {ad : Buf K} (hi32 : nsta * nsta < 2147483648) (had : Vec ad (nsta * nsta) (nsta * nsta)) {f : Buf Int}
    (hf : Flags nsta f) (hns : cnt f.val nsta = ns) (m mm : Nat) (hm : m < nsta) (hmm : mm < nsta) {a : Buf (Buf K)}
    (ha : Mat a (nsta + 1) (nsta + 2)) :
    Safe (loadRow nsta ad f m (mm : Int) a) fun r => Mat r.1 (nsta + 1) (nsta + 2) ∧
      (∀ c, c < ns → (get r.1 mm c).isSome) ∧ ∀ p c, p ≠ mm → get r.1 p c = get a p c := by
  unfold loadRow
  refine (safe_forUp 0 nsta _ (a, (-1 : Int)) (fun k s => Mat s.1 (nsta + 1) (nsta + 2) ∧ s.2 + 1 = (cnt f.val k : Int) ∧
    (∀ c, c < cnt f.val k → (get s.1 mm c).isSome) ∧ ∀ p c, p ≠ mm → get s.1 p c = get a p c)
    (Nat.zero_le _) ⟨ha, by simp [cnt], fun c hc => by simp [cnt] at hc, fun _ _ _ => rfl⟩ fun k s _ hk hI => ?_).mono fun r hr => ?_
  · obtain ⟨h1, h2, h3, h4⟩ := hI
    refine Safe.bind (Vec.safe_rd hf k hk (by omega)) fun v hv => ?_
    have hlt : m * nsta + k < nsta * nsta := by
      have : (m + 1) * nsta ≤ nsta * nsta := Nat.mul_le_mul_right _ (by omega)
      rw [Nat.add_mul] at this
      omega
    by_cases e : v = 1
    · rw [if_pos e]
      subst e
      have hcnt : cnt f.val (k + 1) = cnt f.val k + 1 := by rw [cnt, if_pos hv]
      have hck : cnt f.val k ≤ k := cnt_le _ _
      have l2 : m * nsta + k < 2147483648 := lt_trans hlt hi32
      have l1 : m * nsta < 2147483648 := lt_of_le_of_lt (Nat.le_add_right _ k) l2
      have i1 := safe_int32N (m * nsta) l1
      rw [Int.natCast_mul] at i1
      refine Safe.bind i1 fun q e => ?_
      subst e
      have i2 := safe_int32N (m * nsta + k) l2
      rw [Int.natCast_add, Int.natCast_mul] at i2
      refine Safe.bind i2 fun q e => ?_
      subst e
      rw [← Int.natCast_mul]
      refine Safe.bind (safe_rdOff had (m * nsta) k hlt) fun v _ => ?_
      rw [h2]
      refine Safe.map (wrN h1 mm (cnt f.val k) v (by omega) (by omega)) fun b hb => ⟨hb.1, by rw [hcnt]; simp, fun c hc => ?_, fun p c hp => ?_⟩
      · simp only
        rw [hb.2]
        by_cases e : c = cnt f.val k
        · rw [if_pos ⟨rfl, e⟩]; rfl
        · rw [if_neg (by omega)]; exact h3 c (by omega)
      · simp only
        rw [hb.2, if_neg (by omega)]
        exact h4 p c hp
    · rw [if_neg e]
      have hcnt : cnt f.val (k + 1) = cnt f.val k := by
        rw [cnt_succ, if_neg (by rw [hv]; intro h; exact e (Option.some.inj h)), Nat.add_zero]
      exact safe_ok ⟨h1, by rw [hcnt]; exact h2, by rw [hcnt]; exact h3, h4⟩
  · exact ⟨hr.1, by rw [← hns]; exact hr.2.2.1, hr.2.2.2⟩

/-- The flag of station `k` decides whether it is counted. -/
theorem flag_step {f : Buf Int} {k : Nat} {v : Int} (hv : f.val k = some v) :
    cnt f.val (k + 1) = cnt f.val k + if v = 1 then 1 else 0 := by
  rw [cnt_succ, hv]
  by_cases e : v = 1 <;> simp [e]

theorem safe_load {ad dgrid elev : Buf K} {G o : Nat} (hi32 : nsta * nsta < 2147483648) (had : Vec ad (nsta * nsta) (nsta * nsta))
    (hg : Vec dgrid G G) (ho : o + nsta ≤ G) {f : Buf Int} (hf : Flags nsta f) (hns : cnt f.val nsta = ns) {a : Buf (Buf K)}
    (ha : Mat a (nsta + 1) (nsta + 2)) :
    Safe (load F nsta ns ad dgrid (o : Int) f a) fun b => Ready (ns + 1) (nsta + 1) (nsta + 2) b ∧ Border F (ns + 1) b := by
  unfold load
  have hnn : ns ≤ nsta := by rw [← hns]; exact cnt_le _ _
  refine Safe.bind (safe_forUp 0 nsta _ (a, (-1 : Int)) (fun k s => Mat s.1 (nsta + 1) (nsta + 2) ∧ s.2 + 1 = (cnt f.val k : Int) ∧
    (∀ r c, r < cnt f.val k → c ≤ ns + 1 → (get s.1 r c).isSome) ∧ ∀ c, c < cnt f.val k → get s.1 ns c = some F.one)
    (Nat.zero_le _) ⟨ha, by simp [cnt], fun r c hr => by simp [cnt] at hr, fun c hc => by simp [cnt] at hc⟩ fun k s _ hk hI => ?_) fun s hs => ?_
  · obtain ⟨h1, h2, h3, h4⟩ := hI
    refine Safe.bind (Vec.safe_rd hf k hk (by omega)) fun v hv => ?_
    have hcnt := flag_step hv
    by_cases e : v = 1
    · rw [if_pos e]
      rw [if_pos e] at hcnt
      have hle : cnt f.val (k + 1) ≤ ns := by rw [← hns]; exact cnt_mono _ (by omega)
      rw [h2]
      refine Safe.bind (safe_loadRow hi32 had hf hns k (cnt f.val k) hk (by omega) h1) fun r hr => ?_
      refine Safe.bind (wrN hr.1 ns (cnt f.val k) F.one (by omega) (by omega)) fun b1 k1 => ?_
      refine Safe.bind (wrN k1.1 (cnt f.val k) ns F.one (by omega) (by omega)) fun b2 k2 => ?_
      refine Safe.bind (safe_rdOff hg o k (by omega)) fun d _ => ?_
      have w3 := wrN k2.1 (cnt f.val k) (ns + 1) d (by omega) (by omega)
      rw [Int.natCast_add] at w3
      refine Safe.map w3 fun b3 k3 => ⟨k3.1, by rw [hcnt]; simp, fun r' c hr' hc => ?_, fun c hc => ?_⟩
      · simp only
        rw [k3.2, k2.2, k1.2]
        by_cases e3 : r' = cnt f.val k
        · subst e3
          by_cases c1 : c = ns + 1
          · rw [if_pos ⟨rfl, c1⟩]; rfl
          · rw [if_neg (by omega)]
            by_cases c2 : c = ns
            · rw [if_pos ⟨rfl, c2⟩]; rfl
            · rw [if_neg (by omega), if_neg (by omega)]
              exact hr.2.1 c (by omega)
        · rw [if_neg (by omega), if_neg (by omega)]
          split
          · rfl
          · rw [hr.2.2 r' c e3]
            exact h3 r' c (by omega) hc
      · simp only
        rw [k3.2, k2.2, k1.2, if_neg (by omega), if_neg (by omega)]
        by_cases c1 : c = cnt f.val k
        · rw [if_pos ⟨rfl, c1⟩]
        · rw [if_neg (by omega), hr.2.2 ns c (by omega)]
          exact h4 c (by omega)
    · rw [if_neg e]
      rw [if_neg e, Nat.add_zero] at hcnt
      exact safe_ok ⟨h1, by rw [hcnt]; exact h2, by rw [hcnt]; exact h3, by rw [hcnt]; exact h4⟩
  · obtain ⟨h1, h2, h3, h4⟩ := hs
    rw [hns] at h3 h4
    refine Safe.bind (wrN h1 ns ns F.zero (by omega) (by omega)) fun b1 k1 => ?_
    have w2 := wrN k1.1 ns (ns + 1) F.one (by omega) (by omega)
    rw [Int.natCast_add] at w2
    refine w2.mono fun b2 k2 => ⟨⟨k2.1, fun r c hr hc => ?_⟩, ?_, fun c hc => ?_⟩
    · rw [k2.2, k1.2]
      split
      · rfl
      · split
        · rfl
        · by_cases e : r = ns
          · subst e
            rw [h4 c (by omega)]; rfl
          · exact h3 r c (by omega) (by omega)
    · rw [Nat.add_sub_cancel, k2.2, k1.2, if_neg (by omega), if_pos ⟨rfl, rfl⟩]
    · rw [Nat.add_sub_cancel] at hc ⊢
      rw [k2.2, k1.2, if_neg (by omega), if_neg (by omega)]
      exact h4 c hc

theorem safe_drop {elev wcalc : Buf K} (he : Vec elev nsta nsta) {f : Buf Int} (hf : Flags nsta f) (hns : cnt f.val nsta = ns)
    (hw : Vec wcalc (nsta + 1) (ns + 1)) :
    Safe (drop F nsta elev f wcalc) fun d => d.msave = -1 ∨ ∃ m : Nat, d.msave = (m : Int) ∧ m < nsta ∧ f.val m = some 1 := by
  unfold drop
  have hnn : ns ≤ nsta := by rw [← hns]; exact cnt_le _ _
  refine (safe_forUp 0 nsta _ (⟨-1, -1, F.zero⟩ : Drop K) (fun k (d : Drop K) => d.mm + 1 = (cnt f.val k : Int) ∧
    (d.msave = -1 ∨ ∃ m : Nat, d.msave = (m : Int) ∧ m < nsta ∧ f.val m = some 1))
    (Nat.zero_le _) ⟨by simp [cnt], Or.inl rfl⟩ fun k d _ hk hI => ?_).mono fun d hd => hd.2
  obtain ⟨h1, h2⟩ := hI
  refine Safe.bind (Vec.safe_rd hf k hk (by omega)) fun v hv => ?_
  have hcnt := flag_step hv
  by_cases e : v = 1
  · rw [if_pos e]
    rw [if_pos e] at hcnt
    have hle : cnt f.val (k + 1) ≤ ns := by rw [← hns]; exact cnt_mono _ (by omega)
    have hm : d.mm + 1 + 1 = (cnt f.val (k + 1) : Int) := by rw [hcnt, h1]; simp
    refine Safe.bind (Q := fun _ => True) ?_ fun w _ => ?_
    · rw [h1]
      exact (hw.safe_rd (cnt f.val k) (by omega) (by omega)).mono fun _ _ => trivial
    · split
      · refine Safe.bind (he.safe_rd k hk (by omega)) fun e' _ => ?_
        split
        · exact safe_ok ⟨hm, Or.inr ⟨k, rfl, hk, by rw [hv, e]⟩⟩
        · exact safe_ok ⟨hm, h2⟩
      · exact safe_ok ⟨hm, h2⟩
  · rw [if_neg e]
    rw [if_neg e, Nat.add_zero] at hcnt
    exact safe_ok ⟨by rw [hcnt]; exact h1, h2⟩

theorem safe_scatter {wcalc w : Buf K} {f : Buf Int} (hf : Flags nsta f) (hns : cnt f.val nsta = ns)
    (hc : Vec wcalc (nsta + 1) (ns + 1)) (hw : Vec w (nsta + 1) 0) :
    Safe (scatter F nsta f wcalc w) fun r => Vec r.1 (nsta + 1) nsta := by
  unfold scatter
  have hnn : ns ≤ nsta := by rw [← hns]; exact cnt_le _ _
  refine (safe_forUp 0 nsta _ (w, (-1 : Int)) (fun k s => Vec s.1 (nsta + 1) k ∧ s.2 + 1 = (cnt f.val k : Int))
    (Nat.zero_le _) ⟨hw, by simp [cnt]⟩ fun k s _ hk hI => ?_).mono fun d hd => hd.1
  obtain ⟨h1, h2⟩ := hI
  refine Safe.bind (Vec.safe_rd hf k hk (by omega)) fun v hv => ?_
  have hcnt := flag_step hv
  have hext : ∀ x, Safe (s.1.wr (k : Int) x) fun c => Vec c (nsta + 1) (k + 1) := fun x => by
    refine (h1.safe_wr k x (by omega)).mono fun c hc => ⟨hc.1.live, hc.1.size, fun i hi => ?_⟩
    rw [hc.2]
    split
    · rfl
    · exact h1.val i (by omega)
  by_cases e : v = 1
  · rw [if_pos e]
    rw [if_pos e] at hcnt
    have hle : cnt f.val (k + 1) ≤ ns := by rw [← hns]; exact cnt_mono _ (by omega)
    refine Safe.bind (Q := fun _ => True) ?_ fun x _ => ?_
    · rw [h2]
      exact (hc.safe_rd (cnt f.val k) (by omega) (by omega)).mono fun _ _ => trivial
    · exact Safe.map (hext x) fun c hc => ⟨hc, by simp only; rw [hcnt, h2]; simp⟩
  · rw [if_neg e]
    rw [if_neg e, Nat.add_zero] at hcnt
    exact Safe.map (hext F.zero) fun c hc => ⟨hc, by simp only; rw [hcnt]; exact h2⟩

/-- The arrays in the loop before a round. -/
structure WorkInv (nsta : Nat) (s : Work K) : Prop where
  a : Mat s.a (nsta + 1) (nsta + 2)
  f : Flags nsta s.staflg
  c : Vec s.wcalc (nsta + 1) 0
  w : Vec s.w (nsta + 1) 0

theorem safe_rounds (hF : F.Ok) {ad dgrid elev : Buf K} {G o : Nat} (hi32 : nsta * nsta < 2147483648)
    (had : Vec ad (nsta * nsta) (nsta * nsta)) (hg : Vec dgrid G G) (ho : o + nsta ≤ G) (he : Vec elev nsta nsta) :
    ∀ (fuel ns : Nat) (s : Work K), WorkInv nsta s → cnt s.staflg.val nsta = ns → ns < fuel →
      Safe (rounds F nsta ad dgrid (o : Int) elev fuel ns s) fun t => WorkInv nsta t ∧ Vec t.w (nsta + 1) nsta := by
  intro fuel
  induction fuel with
  | zero => intro ns s _ _ h; omega
  | succ fuel ih =>
    intro ns s hs hns hfuel
    have hnn : ns ≤ nsta := by rw [← hns]; exact cnt_le _ _
    unfold rounds
    refine Safe.bind (safe_load (F := F) (elev := elev) hi32 had hg ho hs.f hns hs.a) fun a ha => ?_
    refine Safe.bind (safe_lusolv (n := ns + 1) (by omega) (by omega) hF ha.1 ha.2 (by omega) hs.c (by omega)) fun r hr => ?_
    cases r with
    | none => exact safe_exit
    | some t =>
      obtain ⟨ta, tx, -, -⟩ := hr t rfl
      refine Safe.bind (safe_drop he hs.f hns tx) fun d hd => ?_
      rcases hd with hd | ⟨m, hd, hm, hfm⟩
      · rw [if_neg (by omega)]
        exact Safe.map (safe_scatter hs.f hns tx hs.w) fun w hw =>
          ⟨⟨ta.1, hs.f, ⟨tx.live, tx.size, fun i hi => by omega⟩, ⟨hw.live, hw.size, fun i hi => by omega⟩⟩, hw⟩
      · rw [if_pos (by omega), hd]
        refine Safe.bind (Vec.safe_wr hs.f m 0 hm) fun f hf => ?_
        have hdrop := cnt_drop s.staflg.val f.val m nsta hm hfm hf.2
        exact ih (ns - 1) ⟨t.a, f, t.x, s.w⟩ ⟨ta.1, hf.1, ⟨tx.live, tx.size, fun i hi => by omega⟩, hs.w⟩ (by simp only; omega) (by omega)

theorem safe_freeRows {a : Buf (Buf K)} (hm : Mat a (nsta + 1) (nsta + 2)) :
    Safe (forUp 0 (nsta + 1) (fun (a : Buf (Buf K)) m => (a.rd m).bind fun row => row.free.map fun row =>
      { a with val := fun k => if k = m then some row else a.val k }) a) fun a => a.live = true ∧ a.size = nsta + 1 ∧
        ∀ i, i < nsta + 1 → ∃ r, a.val i = some r ∧ r.live = decide (nsta + 1 ≤ i) := by
  refine safe_forUp 0 (nsta + 1) _ a (fun k (a : Buf (Buf K)) => a.live = true ∧ a.size = nsta + 1 ∧
    ∀ i, i < nsta + 1 → ∃ r, a.val i = some r ∧ r.live = decide (k ≤ i)) (Nat.zero_le _)
    ⟨hm.live, hm.size, fun i hi => ?_⟩ fun k a _ hk hI => ?_
  · obtain ⟨r, h1, h2, _⟩ := hm.row i hi
    exact ⟨r, h1, by rw [h2]; simp⟩
  · obtain ⟨h1, h2, h3⟩ := hI
    obtain ⟨r, k1, k2⟩ := h3 k hk
    have hrd := CMem.safe_rd (b := a) (i := (k : Int)) h1 (by omega) (by omega) (by simp [k1])
    refine Safe.bind hrd fun row hrow => ?_
    simp only [Int.toNat_natCast] at hrow
    rw [k1] at hrow
    cases hrow
    refine Safe.map (safe_free (by rw [k2]; simp)) fun row hrow => ⟨h1, h2, fun i hi => ?_⟩
    by_cases e : i = k
    · exact ⟨row, by simp [e], by rw [hrow.1, e]; simp⟩
    · obtain ⟨q, q1, q2⟩ := h3 i hi
      refine ⟨q, by simp [e, q1], ?_⟩
      rw [q2, decide_eq_decide]
      omega

/-- What `krige` has allocated is freed. -/
structure AllFreed (nsta : Nat) (e : Ended K) : Prop where
  dist : e.dist.live = false
  idx : e.idx.live = false
  staflg : e.staflg.live = false
  wcalc : e.wcalc.live = false
  a : e.a.live = false
  rows : ∀ i, i < nsta + 1 → ∃ r, e.a.val i = some r ∧ r.live = false

theorem safe_krige (hF : F.Ok) {ad dgrid elev w : Buf K} {G o : Nat} (hi32 : nsta * nsta < 2147483648) (hn32 : nsta + 2 < 2147483648)
    (had : Vec ad (nsta * nsta) (nsta * nsta)) (hg : Vec dgrid G G) (ho : o + nsta ≤ G) (he : Vec elev nsta nsta)
    (hw : Vec w (nsta + 1) 0) :
    Safe (krige F nsta ad dgrid (o : Int) elev w) fun e => AllFreed nsta e ∧ Vec e.w (nsta + 1) nsta := by
  unfold krige
  refine Safe.bind (safe_malloc (α := K) nsta) fun dist hdist => ?_
  refine Safe.bind (safe_malloc (α := Int) nsta) fun idx hidx => ?_
  refine Safe.bind (safe_sort (F := F) hg ho (n := nsta) ⟨hdist.2.2, by omega, fun i hi => by omega⟩ ⟨hidx.2.2, by omega, fun i hi => by omega⟩)
    fun di hdi => ?_
  refine Safe.bind (safe_malloc (α := Int) nsta) fun staflg hsta => ?_
  refine Safe.bind (safe_useFlags hdi.2 ⟨hsta.2.2, by omega, fun i hi => by omega⟩) fun f hf => ?_
  have i1 := safe_int32N (nsta + 2) hn32
  rw [Int.natCast_add] at i1
  refine Safe.bind i1 fun _ _ => ?_
  refine Safe.bind (safe_dmatrix (K := K) (nsta + 1) (nsta + 2)) fun a ha => ?_
  refine Safe.bind (safe_malloc (α := K) ((nsta : Int) + 1)) fun wcalc hwc => ?_
  refine Safe.bind (safe_rounds hF hi32 had hg ho he (nsta + 1) nsta ⟨a, f, wcalc, w⟩
    ⟨ha, hf.1, ⟨hwc.2.2, by simp only; omega, fun i hi => by omega⟩, hw⟩ hf.2.1 (by omega)) fun s hs => ?_
  refine Safe.bind (safe_free hdi.1.live) fun dist hdist => ?_
  refine Safe.bind (safe_free hdi.2.1.live) fun idx hidx => ?_
  refine Safe.bind (safe_free hs.1.f.live) fun staflg hsta => ?_
  refine Safe.bind (safe_free hs.1.c.live) fun wcalc hwc => ?_
  refine Safe.bind (safe_freeRows hs.1.a) fun a ha => ?_
  refine Safe.map (safe_free ha.1) fun a' ha' => ⟨⟨hdist.1, hidx.1, hsta.1, hwc.1, ha'.1, fun i hi => ?_⟩, hs.2⟩
  obtain ⟨r, h1, h2⟩ := ha.2.2 i hi
  refine ⟨r, by simp only; rw [ha'.2.2, h1], ?_⟩
  rw [h2, decide_eq_false_iff_not]
  omega

theorem safe_krigeGrid (hF : F.Ok) {ad dgrid elev weights : Buf K} {ngrid : Nat} (hi32 : nsta * nsta < 2147483648)
    (hn32 : nsta + 2 < 2147483648) (hg32 : ngrid * nsta < 2147483648)
    (had : Vec ad (nsta * nsta) (nsta * nsta)) (hg : Vec dgrid (ngrid * nsta) (ngrid * nsta)) (he : Vec elev nsta nsta)
    (hw : Vec weights (ngrid * nsta) 0) :
    Safe (krigeGrid F nsta ngrid ad dgrid elev weights) fun s => Vec s.2 (ngrid * nsta) (ngrid * nsta) := by
  unfold krigeGrid
  refine (safe_forUp 0 ngrid _ ((⟨nsta + 1, true, fun _ => none⟩ : Buf K), weights)
    (fun k s => Vec s.1 (nsta + 1) 0 ∧ Vec s.2 (ngrid * nsta) (k * nsta)) (Nat.zero_le _)
    ⟨⟨rfl, rfl, fun i hi => by omega⟩, by rw [Nat.zero_mul]; exact hw⟩ fun i s _ hi hI => ?_).mono fun s hs => hs.2
  have hlt : ∀ j, j ≤ nsta → i * nsta + j ≤ ngrid * nsta := fun j hj => by
    have : (i + 1) * nsta ≤ ngrid * nsta := Nat.mul_le_mul_right _ (by omega)
    rw [Nat.add_mul] at this
    omega
  have l0 : i * nsta < 2147483648 := lt_of_le_of_lt (by have := hlt 0 (by omega); omega) hg32
  have i1 := safe_int32N (i * nsta) l0
  rw [Int.natCast_mul] at i1
  refine Safe.bind i1 fun off e => ?_
  subst e
  have hk := safe_krige hF hi32 hn32 had hg (o := i * nsta) (hlt nsta (Nat.le_refl _)) he hI.1
  rw [Int.natCast_mul] at hk
  refine Safe.bind hk fun e hE => ?_
  refine Safe.map (safe_forUp 0 nsta _ s.2 (fun j (w : Buf K) => Vec w (ngrid * nsta) (i * nsta + j)) (Nat.zero_le _) hI.2
    fun j w _ hj hw => ?_) fun w hw => ⟨⟨hE.2.live, hE.2.size, fun i hi => by omega⟩, by rw [Nat.add_mul, Nat.one_mul]; exact hw⟩
  refine Safe.bind (hE.2.safe_rd j hj (by omega)) fun v _ => ?_
  refine Safe.bind i1 fun p e => ?_
  subst e
  have l1 : i * nsta + j < 2147483648 := lt_of_le_of_lt (hlt j (by omega)) hg32
  have i2 := safe_int32N (i * nsta + j) l1
  rw [Int.natCast_add, Int.natCast_mul] at i2
  refine Safe.bind i2 fun p e => ?_
  subst e
  have hlt' : i * nsta + j < ngrid * nsta := by have := hlt (j + 1) (by omega); omega
  have h3 := hw.safe_wr (i * nsta + j) v hlt'
  rw [Int.natCast_add, Int.natCast_mul] at h3
  refine h3.mono fun c hc => ⟨hc.1.live, hc.1.size, fun k hk => ?_⟩
  rw [hc.2]
  split
  · rfl
  · exact hw.val k (by omega)

end

end Verif.KrigeMem
