import Verif.Spec
import Mathlib.Order.WithBot

/-!
# Tine trees as step functions: basic definitions

A tree is a sorted list of tines.  Every tine sits at a key (a point, or one of the two infinities),
and says whether the tree is inside just before it (`isUpperBound`), at it (`inclAt`) and just after
it (`isLowerBound`).
-/

set_option linter.unusedSimpArgs false
set_option linter.unusedVariables false
set_option linter.unnecessarySeqFocus false
set_option linter.unusedSectionVars false

namespace NI

/-- A place on the extended line. -/
inductive Key (α : Type _)
  | bot
  | fin (x : α)
  | top
  deriving DecidableEq

namespace Key
variable {α : Type _}

def toW : Key α → WithBot (WithTop α)
  | bot => ⊥
  | fin x => ((x : WithTop α) : WithBot (WithTop α))
  | top => ((⊤ : WithTop α) : WithBot (WithTop α))

theorem toW_inj : Function.Injective (toW (α := α)) := by
  intro a b h
  cases a <;> cases b <;> first
    | rfl
    | exact absurd h WithBot.bot_ne_coe
    | exact absurd h WithBot.coe_ne_bot
    | exact absurd (WithBot.coe_injective h) WithTop.top_ne_coe
    | exact absurd (WithBot.coe_injective h) WithTop.coe_ne_top
    | exact congrArg fin (WithTop.coe_injective (WithBot.coe_injective h))

variable [LinearOrder α]

noncomputable instance : LinearOrder (Key α) := LinearOrder.lift' toW toW_inj

theorem lt_def (a b : Key α) : a < b ↔ a.toW < b.toW := Iff.rfl

@[simp] theorem bot_lt_fin (x : α) : (bot : Key α) < fin x := by simp [lt_def, toW]
@[simp] theorem bot_lt_top : (bot : Key α) < top := by simp [lt_def, toW]
@[simp] theorem fin_lt_top (x : α) : fin x < top :=
  WithBot.coe_lt_coe.2 (WithTop.coe_lt_top x)
@[simp] theorem fin_lt_fin (x y : α) : fin x < fin y ↔ x < y := by simp [lt_def, toW]
@[simp] theorem not_lt_bot (a : Key α) : ¬ a < bot := by cases a <;> simp [lt_def, toW]
@[simp] theorem not_top_lt (a : Key α) : ¬ top < a := by
  cases a <;> simp [lt_def, toW]
@[simp] theorem fin_le_fin (x y : α) : fin x ≤ fin y ↔ x ≤ y := by
  rw [← not_lt, fin_lt_fin, not_lt]

end Key

namespace Tine
variable {α : Type _}

/-- The key of a tine.  `Point(Infinite)` never occurs. -/
def key : Tine α → Key α
  | lower (.incl x) => .fin x
  | lower (.excl x) => .fin x
  | lower .inf => .bot
  | point (.incl x) => .fin x
  | point (.excl x) => .fin x
  | point .inf => .bot
  | upper (.incl x) => .fin x
  | upper (.excl x) => .fin x
  | upper .inf => .top

/-- Tines that occur: everything but `Point(Infinite)`. -/
def Ok (t : Tine α) : Prop := t ≠ point .inf

/-- Does the tine include its own point? -/
def inclAt : Tine α → Bool
  | lower (.incl _) => true
  | point (.incl _) => true
  | upper (.incl _) => true
  | _ => false

variable [LinearOrder α]

theorem cmp?_eq {s o : Tine α} (hs : s.Ok) (ho : o.Ok) :
    cmp? s o = some (if s.key < o.key then .lt else if s.key = o.key then .eq else .gt) := by
  rcases s with (a | a | _) | (a | a | _) | (a | a | _) <;>
  rcases o with (b | b | _) | (b | b | _) | (b | b | _) <;>
  first
  | exact absurd rfl hs
  | exact absurd rfl ho
  | simp [cmp?, key, asRef, intoInner, Bound.asRef]

theorem cmp_lt {s o : Tine α} (hs : s.Ok) (ho : o.Ok) (h : s.key < o.key) : s.cmp o = .lt := by
  rw [cmp, cmp?_eq hs ho]; simp [h]

theorem cmp_gt {s o : Tine α} (hs : s.Ok) (ho : o.Ok) (h : o.key < s.key) : s.cmp o = .gt := by
  rw [cmp, cmp?_eq hs ho]; simp [h.not_gt, h.ne']

theorem cmp_eq {s o : Tine α} (hs : s.Ok) (ho : o.Ok) (h : s.key = o.key) : s.cmp o = .eq := by
  rw [cmp, cmp?_eq hs ho]; simp [h]

end Tine

/-! ## The BTreeSet operations on a split list -/
namespace BSet
variable {α : Type _} [LinearOrder α]

/-- All tines of the list are legal and lie left of `k`. -/
def Lt (A : List (Tine α)) (k : Key α) : Prop := ∀ t ∈ A, t.Ok ∧ t.key < k
/-- All tines of the list are legal and lie right of `k`. -/
def Gt (B : List (Tine α)) (k : Key α) : Prop := ∀ t ∈ B, t.Ok ∧ k < t.key
/-- All tines of the list are legal and lie at `k`. -/
def At (E : List (Tine α)) (k : Key α) : Prop := ∀ t ∈ E, t.Ok ∧ t.key = k

theorem Lt.nil (k : Key α) : Lt ([] : List (Tine α)) k := by simp [Lt]
theorem Gt.nil (k : Key α) : Gt ([] : List (Tine α)) k := by simp [Gt]
theorem At.nil (k : Key α) : At ([] : List (Tine α)) k := by simp [At]
theorem Lt.append {A B : List (Tine α)} {k : Key α} (h1 : Lt A k) (h2 : Lt B k) : Lt (A ++ B) k := by
  intro t ht; rcases List.mem_append.1 ht with h | h; exacts [h1 t h, h2 t h]
theorem Gt.append {A B : List (Tine α)} {k : Key α} (h1 : Gt A k) (h2 : Gt B k) : Gt (A ++ B) k := by
  intro t ht; rcases List.mem_append.1 ht with h | h; exacts [h1 t h, h2 t h]
theorem Lt.trans {A : List (Tine α)} {k k' : Key α} (h : Lt A k) (hk : k ≤ k') : Lt A k' :=
  fun t ht => ⟨(h t ht).1, lt_of_lt_of_le (h t ht).2 hk⟩
theorem Gt.trans {A : List (Tine α)} {k k' : Key α} (h : Gt A k) (hk : k' ≤ k) : Gt A k' :=
  fun t ht => ⟨(h t ht).1, lt_of_le_of_lt hk (h t ht).2⟩
theorem At.lt {A : List (Tine α)} {k k' : Key α} (h : At A k) (hk : k < k') : Lt A k' :=
  fun t ht => ⟨(h t ht).1, (h t ht).2 ▸ hk⟩
theorem At.gt {A : List (Tine α)} {k k' : Key α} (h : At A k) (hk : k' < k) : Gt A k' :=
  fun t ht => ⟨(h t ht).1, (h t ht).2 ▸ hk⟩

theorem insert_split {x : Tine α} (hx : x.Ok) {A B : List (Tine α)} (hA : Lt A x.key)
    (hB : Gt B x.key) : insert x (A ++ B) = A ++ x :: B := by
  induction A with
  | nil =>
    cases B with
    | nil => rfl
    | cons b B =>
      have hb := hB b (List.mem_cons_self)
      simp [insert, Tine.cmp_lt hx hb.1 hb.2]
  | cons a A ih =>
    have ha := hA a (List.mem_cons_self)
    simp only [List.cons_append, insert, Tine.cmp_gt hx ha.1 ha.2]
    rw [ih fun t ht => hA t (List.mem_cons_of_mem _ ht)]

theorem taken_split {x : Tine α} (hx : x.Ok) {A E B : List (Tine α)} (hA : Lt A x.key)
    (hE : At E x.key) (hB : Gt B x.key) : taken x (A ++ E ++ B) = E.head? := by
  unfold taken
  rw [List.find?_append, List.find?_append]
  have h1 : A.find? (fun y => x.cmp y == .eq) = none := by
    rw [List.find?_eq_none]; intro y hy
    simp [Tine.cmp_gt hx (hA y hy).1 (hA y hy).2]
  have h2 : B.find? (fun y => x.cmp y == .eq) = none := by
    rw [List.find?_eq_none]; intro y hy
    simp [Tine.cmp_lt hx (hB y hy).1 (hB y hy).2]
  rw [h1, h2]
  cases E with
  | nil => rfl
  | cons e E =>
    have he := hE e (List.mem_cons_self)
    simp [List.find?, Tine.cmp_eq hx he.1 he.2.symm]

theorem filter_keep {p : Tine α → Bool} {A : List (Tine α)} (h : ∀ t ∈ A, p t = true) :
    A.filter p = A := List.filter_eq_self.2 h
theorem filter_drop {p : Tine α → Bool} {A : List (Tine α)} (h : ∀ t ∈ A, p t = false) :
    A.filter p = [] := by
  rw [List.filter_eq_nil_iff]; intro t ht; simp [h t ht]

theorem remove_split {x : Tine α} (hx : x.Ok) {A E B : List (Tine α)} (hA : Lt A x.key)
    (hE : At E x.key) (hB : Gt B x.key) : remove x (A ++ E ++ B) = A ++ B := by
  unfold remove
  rw [List.filter_append, List.filter_append, filter_keep, filter_drop, filter_keep,
    List.append_nil]
  · intro t ht; simp [Tine.cmp_lt hx (hB t ht).1 (hB t ht).2]
  · intro t ht; simp [Tine.cmp_eq hx (hE t ht).1 (hE t ht).2.symm]
  · intro t ht; simp [Tine.cmp_gt hx (hA t ht).1 (hA t ht).2]

theorem below_split {x : Tine α} (hx : x.Ok) {A B : List (Tine α)} (hA : Lt A x.key)
    (hB : Gt B x.key) : below x (A ++ B) = A := by
  unfold below
  rw [List.filter_append, filter_keep, filter_drop, List.append_nil]
  · intro t ht; simp [Tine.cmp_lt hx (hB t ht).1 (hB t ht).2]
  · intro t ht; simp [Tine.cmp_gt hx (hA t ht).1 (hA t ht).2]

theorem above_split {x : Tine α} (hx : x.Ok) {A B : List (Tine α)} (hA : Lt A x.key)
    (hB : Gt B x.key) : above x (A ++ B) = B := by
  unfold above
  rw [List.filter_append, filter_drop, filter_keep, List.nil_append]
  · intro t ht; simp [Tine.cmp_lt hx (hB t ht).1 (hB t ht).2]
  · intro t ht; simp [Tine.cmp_gt hx (hA t ht).1 (hA t ht).2]

end BSet

/-! ## Valid trees -/
namespace TT
variable {α : Type _} [LinearOrder α]

/-- Starting in state `s` (inside or outside), the tines fit together and end in state `e`. -/
def Chain : Bool → List (Tine α) → Bool → Prop
  | s, [], e => s = e
  | s, t :: ts, e => t.isUpperBound = s ∧ Chain t.isLowerBound ts e

/-- Strictly increasing legal tines. -/
def Sorted (ts : List (Tine α)) : Prop :=
  (∀ t ∈ ts, t.Ok) ∧ ts.Pairwise fun a b => a.key < b.key

/-- The representation invariant of `TineTree`. -/
def Valid (t : TineTree α) : Prop := Sorted t ∧ Chain false t false

theorem chain_append {s e : Bool} {A B : List (Tine α)} :
    Chain s (A ++ B) e ↔ ∃ m, Chain s A m ∧ Chain m B e := by
  induction A generalizing s with
  | nil => simp [Chain]
  | cons a A ih => simp only [List.cons_append, Chain, ih]; grind

theorem sorted_append {A B : List (Tine α)} : Sorted (A ++ B) ↔
    Sorted A ∧ Sorted B ∧ ∀ a ∈ A, ∀ b ∈ B, a.key < b.key := by
  simp only [Sorted, List.pairwise_append, List.mem_append]
  constructor
  · rintro ⟨h1, h2, h3, h4⟩
    exact ⟨⟨fun t ht => h1 t (.inl ht), h2⟩, ⟨fun t ht => h1 t (.inr ht), h3⟩, h4⟩
  · rintro ⟨⟨h1, h2⟩, ⟨h3, h4⟩, h5⟩
    exact ⟨fun t ht => ht.elim (h1 t) (h3 t), h2, h4, h5⟩

theorem sorted_nil : Sorted ([] : List (Tine α)) := ⟨by simp, .nil⟩

theorem sorted_cons {a : Tine α} {B : List (Tine α)} : Sorted (a :: B) ↔
    a.Ok ∧ BSet.Gt B a.key ∧ Sorted B := by
  simp only [Sorted, List.pairwise_cons, List.mem_cons, BSet.Gt]
  constructor
  · rintro ⟨h1, h2, h3⟩
    exact ⟨h1 a (.inl rfl), fun t ht => ⟨h1 t (.inr ht), h2 t ht⟩, fun t ht => h1 t (.inr ht), h3⟩
  · rintro ⟨h1, h2, h3, h4⟩
    exact ⟨fun t ht => ht.elim (fun e => e ▸ h1) (h3 t), fun t ht => (h2 t ht).2, h4⟩

/-- Sorted pieces around a key glue together. -/
theorem sorted_glue {A E B : List (Tine α)} {k : Key α} (hA : Sorted A) (hE : Sorted E)
    (hB : Sorted B) (h1 : BSet.Lt A k) (h2 : BSet.At E k) (h3 : BSet.Gt B k) :
    Sorted (A ++ E ++ B) := by
  rw [sorted_append, sorted_append]
  refine ⟨⟨hA, hE, fun a ha b hb => ?_⟩, hB, fun a ha b hb => ?_⟩
  · rw [(h2 b hb).2]; exact (h1 a ha).2
  · rcases List.mem_append.1 ha with ha | ha
    · exact (h1 a ha).2.trans (h3 b hb).2
    · rw [(h2 a ha).2]; exact (h3 b hb).2

/-- The state just before the end is the `isLowerBound` of the last tine. -/
theorem chain_last {A : List (Tine α)} {e : Bool} (h : Chain false A e) :
    TineTree.someAnd A.getLast? Tine.isLowerBound = e := by
  rcases List.eq_nil_or_concat A with rfl | ⟨A', a, rfl⟩
  · exact h
  · rw [List.concat_eq_append] at *
    rw [chain_append] at h
    obtain ⟨m, _, h2, h3⟩ := h
    simp [TineTree.someAnd, Chain] at *
    exact h3

theorem chain_head {B : List (Tine α)} {s : Bool} (h : Chain s B false) :
    TineTree.someAnd B.head? Tine.isUpperBound = s := by
  cases B with
  | nil => exact h.symm
  | cons b B => exact h.1

/-! ## The canonical tine at a key -/

/-- The zero or one tine at `k` that turns state `b` before into state `a` at and `c` after. -/
def edge (k : Key α) (b a c : Bool) : List (Tine α) :=
  match k with
  | .bot => if c then [.lower .inf] else []
  | .top => if b then [.upper .inf] else []
  | .fin x =>
    match b, a, c with
    | false, false, false => []
    | false, true, false => [.point (.incl x)]
    | false, false, true => [.lower (.excl x)]
    | false, true, true => [.lower (.incl x)]
    | true, false, false => [.upper (.excl x)]
    | true, true, false => [.upper (.incl x)]
    | true, true, true => []
    | true, false, true => [.point (.excl x)]

/-- The triples that make sense at a key. -/
def Fits (k : Key α) (b a c : Bool) : Prop :=
  match k with
  | .bot => b = false ∧ a = false
  | .top => a = false ∧ c = false
  | .fin _ => True

theorem edge_at (k : Key α) (b a c : Bool) : BSet.At (edge k b a c) k := by
  intro t ht
  cases k <;> cases b <;> cases a <;> cases c <;> simp [edge] at ht <;> subst ht <;>
    simp [Tine.key, Tine.Ok]

theorem edge_sorted (k : Key α) (b a c : Bool) : Sorted (edge k b a c) := by
  cases k <;> cases b <;> cases a <;> cases c <;> simp [edge, Sorted, Tine.Ok]

theorem edge_chain (k : Key α) (b a c : Bool) (h : Fits k b a c) : Chain b (edge k b a c) c := by
  cases k <;> cases b <;> cases a <;> cases c <;>
    simp_all [edge, Chain, Fits, Tine.isUpperBound, Tine.isLowerBound]

/-- Every legal tine is the edge of its own data. -/
theorem edge_self {t : Tine α} (h : t.Ok) :
    [t] = edge t.key t.isUpperBound t.inclAt t.isLowerBound ∧
    Fits t.key t.isUpperBound t.inclAt t.isLowerBound := by
  rcases t with (a | a | _) | (a | a | _) | (a | a | _) <;>
    first
    | exact absurd rfl h
    | simp [edge, Tine.key, Tine.isUpperBound, Tine.inclAt, Tine.isLowerBound, Fits]

/-- Every valid stretch can be split at every key. -/
theorem split_at {s e : Bool} {ts : List (Tine α)} (hs : Sorted ts) (hc : Chain s ts e) (k : Key α)
    (hb : k = .bot → s = false) (ht : k = .top → e = false) :
    ∃ A B b a c, ts = A ++ edge k b a c ++ B ∧ Fits k b a c ∧ BSet.Lt A k ∧ BSet.Gt B k ∧
      Sorted A ∧ Sorted B ∧ Chain s A b ∧ Chain c B e := by
  induction ts generalizing s with
  | nil =>
    have hc : s = e := hc
    subst hc
    cases k with
    | bot =>
      have := hb rfl; subst this
      exact ⟨[], [], false, false, false, rfl, ⟨rfl, rfl⟩, .nil _, .nil _, sorted_nil, sorted_nil,
        rfl, rfl⟩
    | top =>
      have := ht rfl; subst this
      exact ⟨[], [], false, false, false, rfl, ⟨rfl, rfl⟩, .nil _, .nil _, sorted_nil, sorted_nil,
        rfl, rfl⟩
    | fin x =>
      refine ⟨[], [], s, s, s, ?_, trivial, .nil _, .nil _, sorted_nil, sorted_nil, rfl, rfl⟩
      cases s <;> rfl
  | cons t ts ih =>
    obtain ⟨h1, h2, h3⟩ := sorted_cons.1 hs
    obtain ⟨h4, h5⟩ := hc
    rcases lt_trichotomy t.key k with hlt | heq | hgt
    · have hbot : k = .bot → t.isLowerBound = false := by
        rintro rfl; exact absurd hlt (Key.not_lt_bot _)
      obtain ⟨A, B, b, a, c, e1, e2, e3, e4, e5, e6, e7, e8⟩ := ih h3 h5 hbot
      refine ⟨t :: A, B, b, a, c, by rw [e1]; simp, e2, ?_, e4, ?_, e6, ⟨h4, e7⟩, e8⟩
      · intro t' ht'
        rcases List.mem_cons.1 ht' with rfl | ht'
        · exact ⟨h1, hlt⟩
        · exact e3 t' ht'
      · rw [sorted_cons]
        refine ⟨h1, fun t' ht' => h2 t' ?_, e5⟩
        rw [e1]; simp [ht']
    · subst heq
      obtain ⟨g1, g2⟩ := edge_self h1
      refine ⟨[], ts, _, _, _, by rw [← g1]; rfl, g2, .nil _, h2, sorted_nil, h3, h4.symm, h5⟩
    · have hall : BSet.Gt (t :: ts) k := by
        intro t' ht'
        rcases List.mem_cons.1 ht' with rfl | ht'
        · exact ⟨h1, hgt⟩
        · exact ⟨(h2 t' ht').1, hgt.trans (h2 t' ht').2⟩
      cases k with
      | bot =>
        have := hb rfl; subst this
        exact ⟨[], t :: ts, false, false, false, rfl, ⟨rfl, rfl⟩, .nil _, hall, sorted_nil, hs,
          rfl, h4, h5⟩
      | top => exact absurd hgt (Key.not_top_lt _)
      | fin x =>
        refine ⟨[], t :: ts, s, s, s, ?_, trivial, .nil _, hall, sorted_nil, hs, rfl, h4, h5⟩
        cases s <;> rfl

/-! ## Coverage -/

/-- Is the stretch, entered in state `s`, inside at key `k` (`aft = false`) or just after key `k`
(`aft = true`)? -/
noncomputable def cov (aft : Bool) : Bool → List (Tine α) → Key α → Bool
  | s, [], _ => s
  | s, t :: ts, k =>
    open Classical in
    if k < t.key then s
    else if k = t.key ∧ aft = false then t.inclAt
    else cov aft t.isLowerBound ts k

theorem cov_gt {aft s : Bool} {B : List (Tine α)} {k : Key α} (h : BSet.Gt B k) :
    cov aft s B k = s := by
  cases B with
  | nil => rfl
  | cons b B => simp [cov, (h b (List.mem_cons_self)).2]

theorem cov_lt {aft s e : Bool} {A B : List (Tine α)} {k : Key α} (h : BSet.Lt A k)
    (hc : Chain s A e) : cov aft s (A ++ B) k = cov aft e B k := by
  induction A generalizing s with
  | nil => have hc : s = e := hc; rw [hc]; rfl
  | cons a A ih =>
    have ha := (h a (List.mem_cons_self)).2
    rw [List.cons_append, cov, if_neg ha.not_gt, if_neg (by simp [ha.ne'])]
    exact ih (fun t ht => h t (List.mem_cons_of_mem _ ht)) hc.2

/-- Coverage at and after the splitting key. -/
theorem cov_split {s : Bool} {A B : List (Tine α)} {k : Key α} {b a c : Bool}
    (hf : Fits k b a c) (hA : BSet.Lt A k) (hB : BSet.Gt B k) (hc : Chain s A b) :
    cov false s (A ++ edge k b a c ++ B) k = a ∧
    cov true s (A ++ edge k b a c ++ B) k = c := by
  rw [List.append_assoc, cov_lt hA hc, cov_lt hA hc]
  cases k <;> cases b <;> cases a <;> cases c <;>
    simp [Fits] at hf <;>
    simp_all [edge, cov, cov_gt, Tine.key, Tine.inclAt, Tine.isLowerBound]

end TT
end NI
