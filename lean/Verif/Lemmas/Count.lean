import Verif.Lemmas.Isect
import Verif.Lemmas.Neat

/-!
# How many intervals
-/

set_option linter.unusedSimpArgs false
set_option linter.unusedVariables false
set_option linter.unusedSectionVars false

namespace NI
namespace TT
variable {α : Type} [LinearOrder α]
open BSet (Lt Gt At)

/-- The tines that begin an interval. -/
def cnt : List (Tine α) → Nat
  | [] => 0
  | .upper _ :: t => cnt t
  | _ :: t => cnt t + 1

theorem cnt_append (A B : List (Tine α)) : cnt (A ++ B) = cnt A + cnt B := by
  induction A with
  | nil => simp [cnt]
  | cons x A ih => cases x <;> simp [cnt, ih] <;> omega

/-- The number of intervals of a tree. -/
theorem pieces_cnt {t : List (Tine α)} : (∀ x ∈ t, x.Ok) →
    (Chain false t false → (pieces none t).length = cnt t) ∧
    ∀ b, Chain true t false → (pieces (some b) t).length = cnt t + 1 := by
  induction t with
  | nil => exact fun _ => ⟨fun _ => rfl, fun b h => by cases h⟩
  | cons x t ih =>
    intro h
    obtain ⟨h1, h2⟩ := ih fun y hy => h y (List.mem_cons_of_mem _ hy)
    have hx := h x (by simp)
    rcases x with b | (p | p | _) | b <;> refine ⟨fun hc => ?_, fun b' hc => ?_⟩ <;>
      simp [Chain, Tine.isUpperBound, Tine.isLowerBound, Tine.Ok] at hc hx <;>
      simp [pieces, cnt, h1, h2, hc]

theorem cnt_edge (k : Key α) (b a c : Bool) : cnt (edge k b a c) ≤ 1 := by
  cases k <;> cases b <;> cases a <;> cases c <;> simp [edge, cnt]

theorem cnt_chain {s e : Bool} {A : List (Tine α)} (h : Chain s A e) : e.toNat ≤ s.toNat + cnt A := by
  induction A generalizing s with
  | nil => cases h; simp [cnt]
  | cons x A ih =>
    have := ih h.2
    have h1 := h.1
    rcases x with b | (p | p | _) | b <;> simp [Tine.isLowerBound, Tine.isUpperBound] at h1 this <;> subst h1 <;>
      simp [cnt] <;> omega

theorem cnt_insert (x : Tine α) (t : List (Tine α)) : cnt (BSet.insert x t) ≤ cnt t + 1 := by
  induction t with
  | nil => cases x <;> simp [BSet.insert, cnt]
  | cons y t ih =>
    rw [BSet.insert]
    split
    · cases x <;> cases y <;> simp [cnt]
    · omega
    · cases y <;> simp [cnt] <;> omega

theorem unionInPlace_cnt (dbg : Bool) {t t' : TineTree α} (ht : Valid t) {i : RawInterval α}
    (hi : i.WF) (h : TineTree.unionInPlace dbg t i = .ok t') : cnt t' ≤ cnt t + 1 := by
  unfold TineTree.unionInPlace at h
  by_cases hf : i.isFull = true
  · rw [if_pos hf] at h
    cases h
    rw [tree_fromRaw (i := .full) trivial]
    simp [Tine.fromRawInterval, cnt]
  rw [if_neg hf] at h
  rcases fromRaw_cases hi with ⟨_, e⟩ | ⟨p, _, e⟩ | ⟨lb, ub, e, hk⟩ <;> simp only [e] at h
  · cases h; omega
  · obtain ⟨o⟩ := one ht (.fin p)
    rw [unionPoint_eq dbg o] at h
    cases h
    have := congrArg cnt o.eq
    simp only [cnt_append] at this ⊢
    have := cnt_edge (.fin p) o.b true o.c
    omega
  · obtain ⟨w⟩ := two ht hk
    rw [unionProper_eq dbg hk w] at h
    cases h
    have := congrArg cnt w.eq
    simp only [cnt_append] at this ⊢
    have h1 := cnt_edge (Tine.lower lb).key w.b (w.a || (Tine.lower lb).inclAt) true
    have h2 : cnt (edge (Tine.upper ub).key true (w.a2 || (Tine.upper ub).inclAt) w.e) ≤
        cnt (edge (Tine.upper ub).key w.d w.a2 w.e) := by
      have := w.fits2
      revert this
      cases w.d <;> cases w.a2 <;> cases w.e <;> cases (Tine.upper ub).inclAt <;>
        cases (Tine.upper ub).key <;> simp [edge, cnt, Fits]
    simp only [cnt] at *
    omega

theorem minusInPlace_cnt (dbg : Bool) {t t' : TineTree α} (ht : Valid t) {i : RawInterval α}
    (hi : i.WF) (h : TineTree.minusInPlace dbg t i = .ok t') : cnt t' ≤ cnt t + 1 := by
  unfold TineTree.minusInPlace at h
  split_ifs at h with h1 h2
  · cases h; omega
  · cases h; simp [TineTree.new, cnt]
  rcases fromRaw_cases hi with ⟨_, e⟩ | ⟨p, _, e⟩ | ⟨lb, ub, e, hk⟩ <;> simp only [e] at h
  · cases h; omega
  · obtain ⟨o⟩ := one ht (.fin p)
    have hs := exteriorSplitPoint_eq (p := .point (.incl p)) (pincl_ok p) o
    have hle : cnt (o.A ++ o.B) ≤ cnt t := by
      have := congrArg cnt o.eq
      simp only [cnt_append] at this ⊢
      omega
    simp only [TineTree.minusPoint, hs] at h
    have key : ∀ x : Tine α, cnt (BSet.insert x (o.A ++ o.B)) ≤ cnt t + 1 := fun x =>
      (cnt_insert _ _).trans (by omega)
    simp only [bind, Except.bind] at h
    repeat' split at h
    all_goals first
      | cases h; done
      | (cases h; exact key _)
      | (cases h; omega)
  · obtain ⟨w⟩ := two ht hk
    rw [minusProper_eq dbg hk w] at h
    cases h
    have := congrArg cnt w.eq
    simp only [cnt_append] at this ⊢
    have h1 := cnt_edge (Tine.upper ub).key false ((w.a2 && !(Tine.upper ub).inclAt) || (w.d && !w.a2 && w.e)) w.e
    have h2 : cnt (edge (Tine.lower lb).key w.b ((w.a && !(Tine.lower lb).inclAt) || (w.b && !w.a && w.c)) false) ≤
        cnt (edge (Tine.lower lb).key w.b w.a w.c) := by
      have := w.fits
      revert this
      cases w.b <;> cases w.a <;> cases w.c <;> cases (Tine.lower lb).inclAt <;>
        cases (Tine.lower lb).key <;> simp [edge, cnt, Fits]
    simp only [cnt] at *
    omega

theorem cnt_pos {t : TineTree α} (ht : Valid t) (hn : t ≠ []) : 1 ≤ cnt t := by
  cases t with
  | nil => exact absurd rfl hn
  | cons x t =>
    have := ht.2.1
    cases x <;> simp [Tine.isUpperBound] at this <;> simp [cnt]

/-- Cutting a tree down to one interval adds no intervals. -/
theorem isect_cnt {t t' : TineTree α} (ht : Valid t) {i : RawInterval α}
    (hi : i.WF) (v' : Valid t')
    (c' : ∀ aft k, tcov t' aft k = (tcov t aft k && icov i aft k)) : cnt t' ≤ cnt t := by
  rcases fromRaw_cases hi with ⟨e0, e⟩ | ⟨p, e0, e⟩ | ⟨lb, ub, e, hk⟩
  · have : t' = [] := valid_ext v' valid_nil fun aft k _ => by
      change tcov t' aft k = _
      rw [c', icov, e]; simp [cov]
    subst this
    simp [cnt]
  · cases hp : tcov t false (.fin p) with
    | false =>
      have : t' = [] := valid_ext v' valid_nil fun aft k _ => by
        change tcov t' aft k = _
        rw [c', icov, e]
        cases aft <;> simp [cov, Tine.isLowerBound, Tine.inclAt, Tine.key]
        intro h1 h2
        rintro rfl
        rw [h1] at hp; cases hp
      subst this
      simp [cnt]
    | true =>
      have ht0 : t ≠ [] := by rintro rfl; simp [tcov, cov] at hp
      have : t' = Tine.fromRawInterval i := valid_ext v' (fromRaw_valid hi) fun aft k _ => by
        change tcov t' aft k = _
        rw [c', icov, e]
        cases aft <;> simp [cov, Tine.isLowerBound, Tine.inclAt, Tine.key]
        intro h2
        rintro rfl
        exact hp
      rw [this, e]
      exact cnt_pos ht ht0
  obtain ⟨w⟩ := two ht hk
  have f1 : Fits (Tine.lower lb).key false (w.a && (Tine.lower lb).inclAt) w.c := by
    have := w.fits
    rcases lb with x | x | _ <;> simp_all [Fits, Tine.key, Tine.inclAt]
  have f2 : Fits (Tine.upper ub).key w.d (w.a2 && (Tine.upper ub).inclAt) false := by
    have := w.fits2
    rcases ub with x | x | _ <;> simp_all [Fits, Tine.key, Tine.inclAt]
  have hv := two_valid hk f1 f2 (.nil _) w.gtM w.ltM (.nil _) sorted_nil w.sM sorted_nil rfl w.cM rfl
  have := valid_ext v' hv fun aft k _ => by
    change tcov t' aft k = _
    have e1 : tcov t aft k = _ := (congrArg (fun t => tcov t aft k) w.eq).trans
      (cov_two hk w.fits w.fits2 w.ltA w.gtM w.ltM w.gtB w.cA w.cM aft k)
    rw [c', cov_two hk f1 f2 (.nil _) w.gtM w.ltM (.nil _) rfl w.cM]
    rw [e1, icov, e, cov_pair hk]
    rcases lt_trichotomy k (Tine.lower lb).key with h | h | h
    · simp [h, cov]
    · subst h; cases aft <;> simp
    · rcases lt_trichotomy k (Tine.upper ub).key with h' | h' | h'
      · simp [h.not_gt, h.ne', h', h'.ne]
      · subst h'
        cases aft <;> simp [h.not_gt, h.ne']
      · simp [h.not_gt, h.ne', h'.ne', h'.not_gt, cov]
  subst this
  have hA := cnt_chain w.cA
  have := congrArg cnt w.eq
  simp only [cnt_append] at this ⊢
  have h1 : cnt (edge (Tine.lower lb).key false (w.a && (Tine.lower lb).inclAt) w.c) ≤
      cnt w.A + cnt (edge (Tine.lower lb).key w.b w.a w.c) := by
    have := w.fits
    generalize cnt w.A = n at hA
    revert this hA
    cases w.b <;> cases w.a <;> cases w.c <;> cases (Tine.lower lb).inclAt <;>
      cases (Tine.lower lb).key <;> simp [edge, cnt, Fits]
  have h2 : cnt (edge (Tine.upper ub).key w.d (w.a2 && (Tine.upper ub).inclAt) false) ≤
      cnt (edge (Tine.upper ub).key w.d w.a2 w.e) := by
    have := w.fits2
    revert this
    cases w.d <;> cases w.a2 <;> cases w.e <;> cases (Tine.upper ub).inclAt <;>
      cases (Tine.upper ub).key <;> simp [edge, cnt, Fits]
  simp only [cnt] at *
  omega

theorem cnt_map_inv {F : List (Tine α)} (hF : ∀ t ∈ F, Fin t) {c d : Bool} (h : Chain c F d) :
    cnt (F.map inv) + d.toNat = cnt F + c.toNat := by
  induction F generalizing c with
  | nil => cases h; simp [cnt]
  | cons x F ih =>
    have := ih (fun y hy => hF y (List.mem_cons_of_mem _ hy)) h.2
    obtain ⟨z, hz⟩ := hF x (by simp)
    have h1 := h.1
    rcases x with (p | p | _) | (p | p | _) | (p | p | _) <;>
      simp [Tine.isLowerBound, Tine.isUpperBound, Tine.key] at h1 hz this <;> subst h1 <;>
      simp [cnt, inv] <;> omega

/-- The number of intervals of the complement. -/
theorem complement_cnt (dbg : Bool) {t t' : TineTree α} (ht : Valid t)
    (h : TineTree.complement dbg t = .ok t') :
    cnt t' + (tcov t true .bot).toNat + (bef false t .top).toNat = cnt t + 1 := by
  obtain ⟨F, c, d, e, hF, hs, hc⟩ := middle ht
  have e1 : tcov t true .bot = c := by
    rw [e, middle_cov hF hs hc ⟨by simp, by simp⟩, cov_gt (fin_lt hF hs).1]
  have e2 : bef false t .top = d := by
    rw [e, bef_lt (e := d) ?_ ?_]
    · cases d <;> simp [edge, bef, Tine.key]
    · intro x hx
      rcases List.mem_append.1 hx with hx | hx
      · cases c <;> simp [edge] at hx
        subst hx
        exact ⟨by simp [Tine.Ok], by simp [Tine.key]⟩
      · exact (fin_lt hF hs).2 x hx
    · exact chain_append.2 ⟨c, by cases c <;> simp [edge, Chain, Tine.isUpperBound, Tine.isLowerBound], hc⟩
  rw [e1, e2]
  subst e
  rw [complement_eq dbg hF hs hc] at h
  cases h
  have := cnt_map_inv hF hc
  simp only [compl, cnt_append]
  revert this
  clear e1 e2
  cases c <;> cases d <;> simp [edge, cnt] <;> omega

theorem fold_cnt {β : Type} {f : TineTree α → β → Except Panic (TineTree α)} (P : β → Prop)
    (hf : ∀ t i, Valid t → P i → ∃ t', f t i = .ok t' ∧ Valid t' ∧ cnt t' ≤ cnt t + 1) :
    ∀ (is : List β) {t : TineTree α}, Valid t → (∀ i ∈ is, P i) →
    ∃ t', is.foldlM f t = .ok t' ∧ Valid t' ∧ cnt t' ≤ cnt t + is.length
  | [], t, ht, _ => ⟨t, rfl, ht, by simp⟩
  | i :: is, t, ht, h => by
    obtain ⟨t1, e1, v1, h1⟩ := hf t i ht (h i (by simp))
    obtain ⟨t2, e2, v2, h2⟩ := fold_cnt P hf is v1 fun j hj => h j (by simp [hj])
    exact ⟨t2, by rw [List.foldlM_cons, e1]; exact e2, v2, by simp; omega⟩

theorem isectList_length (ss os : List (RawInterval α)) : (isectList ss os).length ≤ os.length := by
  induction ss generalizing os with
  | nil => simp [isectList]
  | cons s ss ih =>
    rw [isectList]
    have := congrArg List.length (List.takeWhile_append_dropWhile (p := fun o => !(s.intersect o).isEmpty)
      (l := os))
    simp only [List.length_append, List.length_map] at this ⊢
    cases h : os.dropWhile fun o => !(s.intersect o).isEmpty with
    | nil => rw [h] at this; simp; omega
    | cons x r =>
      rw [h] at this
      have := ih r
      simp only [List.length_cons] at *
      omega

end TT
end NI
