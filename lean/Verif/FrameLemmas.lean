import Verif.OrderProps

/-!
Helpers for C140: the kriging elimination as a relation with one result, and how it follows a change of units.
-/

namespace Verif.Frame
open Verif.Krige Verif.Lu Finset

section
variable {K : Type} [Field K] [LinearOrder K] [IsStrictOrderedRing K]

/-- The rounds of `krige` from the stations in use to the weights, or to the end of the process (`none`). -/
inductive Chain (n : Nat) (ad : Nat → Nat → K) (d e : Nat → K) : (Nat → Bool) → Option (Nat → K) → Prop
  | ends {flag : Nat → Bool} (deg : Degenerate n ad flag) : Chain n ad d e flag none
  | done {flag : Nat → Bool} {w : Nat → K} {mu : K} (sys : System n ad d flag w mu) (reg : ¬ Degenerate n ad flag)
      (stop : ∀ k < n, w k < 0 → e k ≤ 0) : Chain n ad d e flag (some w)
  | drop {flag : Nat → Bool} {v : Nat → K} {mu : K} {r : Option (Nat → K)} (m : Nat) (sys : System n ad d flag v mu)
      (reg : ¬ Degenerate n ad flag) (hm : m < n) (hf : flag m = true) (neg : v m < 0) (pos : 0 < e m)
      (top : ∀ k < n, v k < 0 → e k ≤ e m) (first : ∀ k < m, v k < 0 → e k < e m)
      (rest : Chain n ad d e (put flag m false) r) : Chain n ad d e flag r

/-- Both end the process, or both give the same weights to the stations. -/
def Agree (n : Nat) (r r' : Option (Nat → K)) : Prop :=
  match r, r' with
  | none, none => True
  | some w, some w' => ∀ i < n, w' i = w i
  | _, _ => False

theorem chain_unique {n : Nat} {ad : Nat → Nat → K} {d e : Nat → K} {flag : Nat → Bool} {r : Option (Nat → K)}
    (h : Chain n ad d e flag r) : ∀ r', Chain n ad d e flag r' → Agree n r r' := by
  induction h with
  | ends deg =>
    intro r' h'
    cases h' with
    | ends _ => trivial
    | done _ reg _ => exact absurd deg reg
    | drop _ _ reg => exact absurd deg reg
  | @done flag w mu sys reg stop =>
    intro r' h'
    cases h' with
    | ends deg => exact absurd deg reg
    | done sys' reg' stop' => exact system_unique n ad d flag _ _ _ _ sys sys' reg
    | drop m sys' reg' hm hf neg pos top first rest =>
      have := system_unique n ad d flag _ _ _ _ sys sys' reg m hm
      rw [this] at neg
      exact absurd pos (not_lt.2 (stop m hm neg))
  | @drop flag v mu r m sys reg hm hfm neg pos top first rest ih =>
    intro r' h'
    cases h' with
    | ends deg => exact absurd deg reg
    | done sys' reg' stop' =>
      have := system_unique n ad d flag _ _ _ _ sys sys' reg m hm
      rw [← this] at neg
      exact absurd pos (not_lt.2 (stop' m hm neg))
    | drop m' sys' reg' hm' hf' neg' pos' top' first' rest' =>
      have hu := system_unique n ad d flag _ _ _ _ sys sys' reg
      have n1 : v m' < 0 := by rw [← hu m' hm']; exact neg'
      have hmm : m' = m := by
        rcases lt_trichotomy m' m with q | q | q
        · exact absurd (first m' q n1) (not_lt.2 (top' m hm (by rw [hu m hm]; exact neg)))
        · exact q
        · exact absurd (first' m q (by rw [hu m hm]; exact neg)) (not_lt.2 (top m' hm' n1))
      subst hmm
      exact ih r' rest'

/-- The loop follows the relation. -/
theorem loop_chain (mem : Mem K) (n : Nat) (ad : Nat → Nat → K) (d e : Nat → K) (hd : ∀ m < n, 0 ≤ d m) (fuel : Nat)
    (flag : Nat → Bool) (hfuel : cnt flag n < fuel) :
    match loop mem n ad d e fuel (cnt flag n) flag with
    | .weights w => Chain n ad d e flag (some w)
    | .exit => Chain n ad d e flag none
    | .stuck => False := by
  induction fuel generalizing flag with
  | zero => omega
  | succ fuel ih =>
    rw [loop]
    cases hs : lusolv (mem.lu (cnt flag n)) (cnt flag n + 1) (load n (cnt flag n) ad d flag (mem.a (cnt flag n))) with
    | none => exact .ends ((load_singular _ _ d _ _).1 ((C57_singular _ _ _).1 hs))
    | some x =>
      obtain ⟨hsys, -⟩ := round_system _ n ad d flag _ x hd hs
      have hreg : ¬ Degenerate n ad flag := fun h => by
        rw [(C57_singular _ _ _).2 ((load_singular _ _ d _ _).2 h)] at hs
        cases hs
      have hdrop := drop_spec n flag e x
      simp only
      cases hdr : drop n flag e x with
      | none =>
        rw [hdr] at hdrop
        simp only at hdrop ⊢
        have hsc := scatter_spec n flag x mem.w
        refine .done (mu := x (cnt flag n)) ⟨fun m hm hf => ?_, ?_, fun k hk hf => ?_⟩ hreg fun k hk hw => ?_
        · rw [← hsys.1 m hm hf]
          congr 1
          apply sum_congr rfl
          intro k hk
          rw [mem_range] at hk
          rw [hsc k hk]
        · rw [← hsys.2.1]
          apply sum_congr rfl
          intro k hk
          rw [mem_range] at hk
          rw [hsc k hk]
        · rw [hsc k hk, hf]; simp
        · rw [hsc k hk] at hw
          split at hw
          · rename_i hf; exact hdrop k hk hf hw
          · exact absurd hw (lt_irrefl _)
      | some m =>
        have hfst := Order.drop_first n flag e x m hdr
        rw [hdr] at hdrop
        simp only at hdrop ⊢
        obtain ⟨hm, hf, hneg, hpos, htop⟩ := hdrop
        have hlt := cnt_lt flag hm hf
        have := ih (put flag m false) (by rw [cnt_drop flag hm hf]; omega)
        rw [cnt_drop flag hm hf] at this
        have step : ∀ r, Chain n ad d e (put flag m false) r → Chain n ad d e flag r := fun r hr => by
          refine .drop m hsys hreg hm hf (by simpa [hf] using hneg) hpos (fun k hk hw => ?_) (fun k hk hw => ?_) hr
          · split at hw
            · rename_i hf; exact htop k hk hf hw
            · exact absurd hw (lt_irrefl _)
          · split at hw
            · rename_i hf; exact hfst k hk hf hw
            · exact absurd hw (lt_irrefl _)
        cases hl : loop mem n ad d e fuel (cnt flag n - 1) (put flag m false) with
        | weights w => rw [hl] at this; exact step _ this
        | exit => rw [hl] at this; exact step _ this
        | stuck => rw [hl] at this; exact this

/-- The result of `krige`. -/
def outcome : Outcome K → Option (Nat → K)
  | .weights w => some w
  | _ => none

theorem krige_chain (mem : Mem K) (n : Nat) (ad : Nat → Nat → K) (d e : Nat → K) (hd : ∀ m < n, 0 ≤ d m) :
    ∃ flag : Nat → Bool, (∀ i < n, flag i = true) ∧ Chain n ad d e flag (outcome (krige mem n ad d e)) := by
  refine ⟨useFlags n d mem.flags, fun i hi => useFlags_all n d mem.flags i hi, ?_⟩
  have hc : cnt (useFlags n d mem.flags) n = n := cnt_all _ n fun i hi => useFlags_all n d mem.flags i hi
  have := loop_chain mem n ad d e hd (n + 1) (useFlags n d mem.flags) (by rw [hc]; omega)
  rw [hc] at this
  unfold krige
  cases h : loop mem n ad d e (n + 1) n (useFlags n d mem.flags) with
  | weights w => rw [h] at this; exact this
  | exit => rw [h] at this; exact this
  | stuck => rw [h] at this; exact this.elim

/-- The same numbers in other units: distances times `s`, elevations in the same order and on the same side of sea level. -/
structure Rescaled (n : Nat) (s : K) (ad ad' : Nat → Nat → K) (d d' e e' : Nat → K) : Prop where
  pos : 0 < s
  ad : ∀ i < n, ∀ j < n, ad' i j = s * ad i j
  d : ∀ i < n, d' i = s * d i
  sea : ∀ i < n, 0 < e' i ↔ 0 < e i
  order : ∀ i < n, ∀ j < n, e' i ≤ e' j ↔ e i ≤ e j

omit [LinearOrder K] [IsStrictOrderedRing K] in
theorem system_scale {n : Nat} {s : K} {ad ad' : Nat → Nat → K} {d d' : Nat → K}
    (had : ∀ i < n, ∀ j < n, ad' i j = s * ad i j) (hd : ∀ i < n, d' i = s * d i) {flag flag' : Nat → Bool}
    (hf : ∀ i < n, flag' i = flag i) {w : Nat → K} {mu : K} (h : System n ad d flag w mu) : System n ad' d' flag' w (s * mu) := by
  refine ⟨fun m hm hfm => ?_, h.2.1, fun k hk hfk => h.2.2 k hk (by rw [← hf k hk]; exact hfk)⟩
  rw [hd m hm, ← h.1 m hm (by rw [← hf m hm]; exact hfm), mul_add, mul_sum]
  congr 1
  refine sum_congr rfl fun k hk => ?_
  rw [had m hm k (mem_range.1 hk), mul_assoc]

omit [LinearOrder K] [IsStrictOrderedRing K] in
theorem degenerate_scale {n : Nat} {s : K} (hs : s ≠ 0) {ad ad' : Nat → Nat → K} (had : ∀ i < n, ∀ j < n, ad' i j = s * ad i j)
    {flag flag' : Nat → Bool} (hf : ∀ i < n, flag' i = flag i) : Degenerate n ad' flag' ↔ Degenerate n ad flag := by
  have one : ∀ m < n, ∀ v : Nat → K, ∑ k ∈ range n, ad' m k * v k = s * ∑ k ∈ range n, ad m k * v k := fun m hm v => by
    rw [mul_sum]
    refine sum_congr rfl fun k hk => ?_
    rw [had m hm k (mem_range.1 hk), mul_assoc]
  constructor
  · rintro ⟨v, nu, h1, h2, h3, h4⟩
    refine ⟨v, nu / s, ?_, fun m hm hfm => ?_, h3, fun k hk hfk => h4 k hk (by rw [hf k hk]; exact hfk)⟩
    · rcases h1 with h1 | h1
      · exact .inl (div_ne_zero h1 hs)
      · exact .inr h1
    · have := h2 m hm (by rw [hf m hm]; exact hfm)
      rw [one m hm] at this
      field_simp
      linear_combination this
  · rintro ⟨v, nu, h1, h2, h3, h4⟩
    refine ⟨v, s * nu, ?_, fun m hm hfm => ?_, h3, fun k hk hfk => h4 k hk (by rw [← hf k hk]; exact hfk)⟩
    · rcases h1 with h1 | h1
      · exact .inl (mul_ne_zero hs h1)
      · exact .inr h1
    · rw [one m hm]
      have := h2 m hm (by rw [← hf m hm]; exact hfm)
      linear_combination s * this

theorem chain_scale {n : Nat} {s : K} {ad ad' : Nat → Nat → K} {d d' e e' : Nat → K} (hr : Rescaled n s ad ad' d d' e e')
    {flag : Nat → Bool} {r : Option (Nat → K)} (h : Chain n ad d e flag r) :
    ∀ flag' : Nat → Bool, (∀ i < n, flag' i = flag i) → Chain n ad' d' e' flag' r := by
  induction h with
  | ends deg => intro flag' hf; exact .ends ((degenerate_scale hr.pos.ne' hr.ad hf).2 deg)
  | done sys reg stop =>
    intro flag' hf
    refine .done (system_scale hr.ad hr.d hf sys) (fun h => reg ((degenerate_scale hr.pos.ne' hr.ad hf).1 h)) fun k hk hw => ?_
    rw [← not_lt, hr.sea k hk, not_lt]
    exact stop k hk hw
  | @drop flag v mu r m sys reg hm hfm neg pos top first rest ih =>
    intro flag' hf
    refine .drop m (system_scale hr.ad hr.d hf sys) (fun h => reg ((degenerate_scale hr.pos.ne' hr.ad hf).1 h)) hm
      (by rw [hf m hm]; exact hfm) neg ((hr.sea m hm).2 pos) (fun k hk hw => (hr.order k hk m hm).2 (top k hk hw))
      (fun k hk hw => ?_) (ih _ fun i hi => ?_)
    · rw [← not_le, hr.order m hm k (hk.trans hm), not_le]
      exact first k hk hw
    · unfold put
      split
      · rfl
      · exact hf i hi

/-- `krige` gives the same weights in other units, or ends the process in both, whatever memory held. -/
theorem krige_scale (mem mem' : Mem K) (n : Nat) {s : K} {ad ad' : Nat → Nat → K} {d d' e e' : Nat → K}
    (hr : Rescaled n s ad ad' d d' e e') (hd : ∀ m < n, 0 ≤ d m) :
    Agree n (outcome (krige mem n ad d e)) (outcome (krige mem' n ad' d' e')) := by
  obtain ⟨f, hf, h⟩ := krige_chain mem n ad d e hd
  obtain ⟨f', hf', h'⟩ := krige_chain mem' n ad' d' e' fun m hm => by
    rw [hr.d m hm]; exact mul_nonneg hr.pos.le (hd m hm)
  exact chain_unique (chain_scale hr h f' fun i hi => by rw [hf i hi, hf' i hi]) _ h'

end

end Verif.Frame
