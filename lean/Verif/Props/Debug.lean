import Verif.Model.Debug
import Verif.Spec.Samples

/-!
# C87: what `Debug` prints
-/

namespace Rangetools
variable {T : Type}

/-- The end of the text, or a character that may follow an element. -/
def Stop (l : List Char) : Prop := l = [] ∨ ∃ c m, l = c :: m ∧ c ∈ [' ', ',', ')', ']']

/-- Texts can be told apart when read from left to right, provided that one of the characters of `Stop` follows. -/
def Readable {α : Type} (h : α → List Char) : Prop :=
  ∀ x y l m, Stop l → Stop m → h x ++ l = h y ++ m → x = y ∧ l = m

theorem stop_cons {c : Char} {l : List Char} (h : c ∈ [' ', ',', ')', ']']) : Stop (c :: l) := Or.inr ⟨c, l, rfl, h⟩

theorem Readable.inj {α : Type} {h : α → List Char} (hh : Readable h) {x y : α} (e : h x = h y) : x = y :=
  (hh x y [] [] (Or.inl rfl) (Or.inl rfl) (by simpa using e)).1

section
variable {h : T → List Char} (hh : Readable h)
include hh

theorem Bound.debug_readable : Readable (Bound.debug .plain h) := by
  intro x y l m _ _ e
  cases x <;> cases y <;> simp [Bound.debug, Fmt.plain, debugTuple] at e <;>
    obtain ⟨rfl, e⟩ := hh _ _ _ _ (stop_cons (by simp)) (stop_cons (by simp)) e <;>
    exact ⟨rfl, by simpa using e⟩

theorem LowerBound.debug_readable : Readable (LowerBound.debug .plain h) := by
  rintro ⟨x⟩ ⟨y⟩ l m _ _ e
  simp [LowerBound.debug, Fmt.plain, debugTuple] at e
  obtain ⟨rfl, e⟩ := Bound.debug_readable hh _ _ _ _ (stop_cons (by simp)) (stop_cons (by simp)) e
  exact ⟨rfl, by simpa using e⟩

theorem UpperBound.debug_readable : Readable (UpperBound.debug .plain h) := by
  rintro ⟨x⟩ ⟨y⟩ l m _ _ e
  simp [UpperBound.debug, Fmt.plain, debugTuple] at e
  obtain ⟨rfl, e⟩ := Bound.debug_readable hh _ _ _ _ (stop_cons (by simp)) (stop_cons (by simp)) e
  exact ⟨rfl, by simpa using e⟩

theorem BoundedRange.debug_readable : Readable (BoundedRange.debug .plain h) := by
  rintro ⟨x, y⟩ ⟨x', y'⟩ l m _ _ e
  simp [BoundedRange.debug, Fmt.plain, debugStruct, debugFields] at e
  obtain ⟨rfl, e⟩ := LowerBound.debug_readable hh _ _ _ _ (stop_cons (by simp)) (stop_cons (by simp)) e
  simp at e
  obtain ⟨rfl, e⟩ := UpperBound.debug_readable hh _ _ _ _ (stop_cons (by simp)) (stop_cons (by simp)) e
  exact ⟨rfl, by simpa using e⟩

theorem LowerBoundedRange.debug_readable : Readable (LowerBoundedRange.debug .plain h) := by
  rintro ⟨x⟩ ⟨x'⟩ l m _ _ e
  simp [LowerBoundedRange.debug, Fmt.plain, debugStruct, debugFields] at e
  obtain ⟨rfl, e⟩ := LowerBound.debug_readable hh _ _ _ _ (stop_cons (by simp)) (stop_cons (by simp)) e
  exact ⟨rfl, by simpa using e⟩

theorem UpperBoundedRange.debug_readable : Readable (UpperBoundedRange.debug .plain h) := by
  rintro ⟨x⟩ ⟨x'⟩ l m _ _ e
  simp [UpperBoundedRange.debug, Fmt.plain, debugStruct, debugFields] at e
  obtain ⟨rfl, e⟩ := UpperBound.debug_readable hh _ _ _ _ (stop_cons (by simp)) (stop_cons (by simp)) e
  exact ⟨rfl, by simpa using e⟩

end

theorem debugRest_stop {α : Type} (g : α → List Char) (z : List α) (k : List Char) :
    Stop (debugRest (z.map g) ++ k) := by
  cases z <;> simp [debugRest, Stop]

theorem debugRest_readable {α : Type} {g : α → List Char} (hg : Readable g) :
    Readable fun l : List α => debugRest (l.map g) := by
  intro x
  induction x with
  | nil =>
    rintro (_ | ⟨b, y⟩) l m _ _ e
    · exact ⟨rfl, by simpa [debugRest] using e⟩
    · simp [debugRest] at e
  | cons a x ih =>
    rintro (_ | ⟨b, y⟩) l m hl hm e
    · simp [debugRest] at e
    · simp only [List.map_cons, debugRest, List.append_assoc, List.append_cancel_left_eq] at e
      obtain ⟨rfl, e1⟩ := hg _ _ _ _ (debugRest_stop _ _ _) (debugRest_stop _ _ _) e
      obtain ⟨rfl, e2⟩ := ih _ _ _ hl hm e1
      exact ⟨rfl, e2⟩

theorem debugList_readable {α : Type} {g : α → List Char} (hg : Readable g) (hs : ∀ a, (g a).head? ≠ some ']')
    (hn : ∀ a, g a ≠ []) :
    Readable fun l : List α => debugList (l.map g) := by
  have ne : ∀ a (k l : List Char), ']' :: l ≠ g a ++ k := by
    intro a k l e
    have := hs a
    cases hga : g a with
    | nil => exact hn a hga
    | cons c r => rw [hga] at e this; simp at e this; exact this e.1.symm
  rintro (_ | ⟨a, x⟩) (_ | ⟨b, y⟩) l m hl hm e
  · exact ⟨rfl, by simpa [debugList] using e⟩
  · simp only [List.map_nil, List.map_cons, debugList, List.append_assoc] at e
    exact absurd (List.cons.inj e).2 (ne _ _ _)
  · simp only [List.map_nil, List.map_cons, debugList, List.append_assoc] at e
    exact absurd (List.cons.inj e).2.symm (ne _ _ _)
  · simp only [List.map_cons, debugList, List.append_assoc, List.append_cancel_left_eq] at e
    obtain ⟨rfl, e1⟩ := hg _ _ _ _ (debugRest_stop _ _ _) (debugRest_stop _ _ _) e
    obtain ⟨rfl, e2⟩ := debugRest_readable hg _ _ _ _ hl hm e1
    exact ⟨rfl, e2⟩

section
variable {h : T → List Char} (hh : Readable h)
include hh

theorem BoundedSet.debug_readable : Readable (BoundedSet.debug .plain h) := by
  rintro ⟨x⟩ ⟨x'⟩ l m _ _ e
  simp only [BoundedSet.debug, Fmt.plain, debugStruct, debugFields, List.append_assoc, List.append_cancel_left_eq] at e
  have hl := debugList_readable (BoundedRange.debug_readable hh) (fun a => by simp [BoundedRange.debug, Fmt.plain, debugStruct])
    (fun a => by simp [BoundedRange.debug, Fmt.plain, debugStruct])
  obtain ⟨rfl, e⟩ := hl _ _ _ _ (by simp [Stop]) (by simp [Stop]) e
  exact ⟨rfl, by simpa using e⟩

theorem LowerBoundedSet.debug_readable : Readable (LowerBoundedSet.debug .plain h) := by
  rintro ⟨x, y⟩ ⟨x', y'⟩ l m _ _ e
  simp [LowerBoundedSet.debug, Fmt.plain, debugStruct, debugFields] at e
  obtain ⟨rfl, e⟩ := BoundedSet.debug_readable hh _ _ _ _ (stop_cons (by simp)) (stop_cons (by simp)) e
  simp at e
  obtain ⟨rfl, e⟩ := LowerBoundedRange.debug_readable hh _ _ _ _ (stop_cons (by simp)) (stop_cons (by simp)) e
  exact ⟨rfl, by simpa using e⟩

theorem UpperBoundedSet.debug_readable : Readable (UpperBoundedSet.debug .plain h) := by
  rintro ⟨x, y⟩ ⟨x', y'⟩ l m _ _ e
  simp [UpperBoundedSet.debug, Fmt.plain, debugStruct, debugFields] at e
  obtain ⟨rfl, e⟩ := UpperBoundedRange.debug_readable hh _ _ _ _ (stop_cons (by simp)) (stop_cons (by simp)) e
  simp at e
  obtain ⟨rfl, e⟩ := BoundedSet.debug_readable hh _ _ _ _ (stop_cons (by simp)) (stop_cons (by simp)) e
  exact ⟨rfl, by simpa using e⟩

theorem PiecewiseUnboundedSet.debug_readable : Readable (PiecewiseUnboundedSet.debug .plain h) := by
  rintro ⟨x, y, z⟩ ⟨x', y', z'⟩ l m _ _ e
  simp [PiecewiseUnboundedSet.debug, Fmt.plain, debugStruct, debugFields] at e
  obtain ⟨rfl, e⟩ := UpperBoundedRange.debug_readable hh _ _ _ _ (stop_cons (by simp)) (stop_cons (by simp)) e
  simp at e
  obtain ⟨rfl, e⟩ := BoundedSet.debug_readable hh _ _ _ _ (stop_cons (by simp)) (stop_cons (by simp)) e
  simp at e
  obtain ⟨rfl, e⟩ := LowerBoundedRange.debug_readable hh _ _ _ _ (stop_cons (by simp)) (stop_cons (by simp)) e
  exact ⟨rfl, by simpa using e⟩

theorem UnboundedSet.debug_readable : Readable (UnboundedSet.debug .plain h) := by
  intro x y l m _ _ e
  cases x <;> cases y <;> simp [UnboundedSet.debug, Fmt.plain, debugTuple] at e
  · exact ⟨rfl, e⟩
  · obtain ⟨rfl, e⟩ := PiecewiseUnboundedSet.debug_readable hh _ _ _ _ (stop_cons (by simp)) (stop_cons (by simp)) e
    exact ⟨rfl, by simpa using e⟩

omit hh in
/-- A number for each type. -/
def Inner.tag : Inner T → Nat
  | .br _ => 0 | .bs _ => 1 | .lbr _ => 2 | .lbs _ => 3 | .ubr _ => 4 | .ubs _ => 5 | .ur => 6 | .us _ => 7 | .er => 8

omit hh in
/-- The number, read off a text. -/
def tagOf (l : List Char) : Nat :=
  if l[0]? = some 'B' then if l[7]? = some 'R' then 0 else 1
  else if l[0]? = some 'L' then if l[12]? = some 'R' then 2 else 3
  else if l[0]? = some 'E' then 8
  else if l[0]? = some 'U' then if l[1]? = some 'n' then 6 else if l[12]? = some 'R' then 4 else 5
  else 7

omit hh in
theorem tagOf_debug (ty : List Char) (x : Inner T) (l : List Char) : tagOf (x.debug .plain h ty ++ l) = x.tag := by
  have e : ∀ (name : String) (fs : List (String × List Char)) (l : List Char), debugStruct name fs ++ l =
      name.toList ++ (' ' :: '{' :: ' ' :: (debugFields fs ++ " }".toList ++ l)) := by
    intro name fs l; simp [debugStruct]
  have c : ∀ (s : String) (cs : List Char), s.toList = cs → ∀ k, tagOf (cs ++ k) = tagOf (s.toList ++ k) := by
    rintro s _ rfl k; rfl
  cases x with
  | br r =>
    exact (congrArg tagOf (e _ _ _)).trans
      (c _ ['B', 'o', 'u', 'n', 'd', 'e', 'd', 'R', 'a', 'n', 'g', 'e'] (by simp) _).symm
  | bs r =>
    exact (congrArg tagOf (e _ _ _)).trans
      (c _ ['B', 'o', 'u', 'n', 'd', 'e', 'd', 'S', 'e', 't'] (by simp) _).symm
  | lbr r =>
    exact (congrArg tagOf (e _ _ _)).trans
      (c _ ['L', 'o', 'w', 'e', 'r', 'B', 'o', 'u', 'n', 'd', 'e', 'd', 'R', 'a', 'n', 'g', 'e'] (by simp) _).symm
  | lbs r =>
    exact (congrArg tagOf (e _ _ _)).trans
      (c _ ['L', 'o', 'w', 'e', 'r', 'B', 'o', 'u', 'n', 'd', 'e', 'd', 'S', 'e', 't'] (by simp) _).symm
  | ubr r =>
    exact (congrArg tagOf (e _ _ _)).trans
      (c _ ['U', 'p', 'p', 'e', 'r', 'B', 'o', 'u', 'n', 'd', 'e', 'd', 'R', 'a', 'n', 'g', 'e'] (by simp) _).symm
  | ubs r =>
    exact (congrArg tagOf (e _ _ _)).trans
      (c _ ['U', 'p', 'p', 'e', 'r', 'B', 'o', 'u', 'n', 'd', 'e', 'd', 'S', 'e', 't'] (by simp) _).symm
  | ur => exact (c "UnboundedRange" ['U', 'n', 'b', 'o', 'u', 'n', 'd', 'e', 'd', 'R', 'a', 'n', 'g', 'e'] (by simp) _).symm
  | er =>
    exact (congrArg tagOf (e _ _ _)).trans
      (c _ ['E', 'm', 'p', 't', 'y', 'R', 'a', 'n', 'g', 'e'] (by simp) _).symm
  | us s =>
    cases s with
    | full => exact (c "Full" ['F', 'u', 'l', 'l'] (by simp) _).symm
    | piecewise s =>
      refine (congrArg tagOf (?_ : _ = "Piecewise".toList ++ ('(' :: (s.debug .plain h ++ ")".toList ++ l)))).trans
        (c _ ['P', 'i', 'e', 'c', 'e', 'w', 'i', 's', 'e'] (by simp) _).symm
      simp [Inner.debug, UnboundedSet.debug, Fmt.plain, debugTuple]

/-- C87. The text that `{:?}` prints for a value of any of the nine types determines the type and the value; and it can be
told where the text ends.  Hence elements that are themselves ranges or sets print readably too. -/
theorem C87_debug_readable (ty : List Char) : Readable (Inner.debug .plain h ty) := by
  intro x y l m hl hm e
  have ht : x.tag = y.tag := by rw [← tagOf_debug (h := h) ty x l, e, tagOf_debug]
  cases x <;> cases y <;> first | (simp [Inner.tag] at ht; done) | skip
  case br.br => obtain ⟨rfl, e'⟩ := BoundedRange.debug_readable hh _ _ _ _ hl hm e; exact ⟨rfl, e'⟩
  case bs.bs => obtain ⟨rfl, e'⟩ := BoundedSet.debug_readable hh _ _ _ _ hl hm e; exact ⟨rfl, e'⟩
  case lbr.lbr => obtain ⟨rfl, e'⟩ := LowerBoundedRange.debug_readable hh _ _ _ _ hl hm e; exact ⟨rfl, e'⟩
  case lbs.lbs => obtain ⟨rfl, e'⟩ := LowerBoundedSet.debug_readable hh _ _ _ _ hl hm e; exact ⟨rfl, e'⟩
  case ubr.ubr => obtain ⟨rfl, e'⟩ := UpperBoundedRange.debug_readable hh _ _ _ _ hl hm e; exact ⟨rfl, e'⟩
  case ubs.ubs => obtain ⟨rfl, e'⟩ := UpperBoundedSet.debug_readable hh _ _ _ _ hl hm e; exact ⟨rfl, e'⟩
  case us.us => obtain ⟨rfl, e'⟩ := UnboundedSet.debug_readable hh _ _ _ _ hl hm e; exact ⟨rfl, e'⟩
  case ur.ur => exact ⟨rfl, List.append_cancel_left e⟩
  case er.er => exact ⟨rfl, List.append_cancel_left e⟩

/-- C87. Two values print the same only if they are of the same type and equal. -/
theorem C87_debug_injective (ty : List Char) (a b : Inner T) : a.debug .plain h ty = b.debug .plain h ty ↔ a = b :=
  ⟨(C87_debug_readable hh ty).inj, fun e => e ▸ rfl⟩

theorem BoundedRangeIter.debug_readable : Readable (BoundedRangeIter.debug .plain h) := by
  rintro ⟨x, y⟩ ⟨x', y'⟩ l m _ _ e
  simp [BoundedRangeIter.debug, Fmt.plain, debugStruct, debugFields] at e
  obtain ⟨rfl, e⟩ := hh _ _ _ _ (stop_cons (by simp)) (stop_cons (by simp)) e
  simp at e
  obtain ⟨rfl, e⟩ := hh _ _ _ _ (stop_cons (by simp)) (stop_cons (by simp)) e
  exact ⟨rfl, by simpa using e⟩

theorem LowerBoundedRangeIter.debug_readable : Readable (LowerBoundedRangeIter.debug .plain h) := by
  rintro ⟨x⟩ ⟨x'⟩ l m _ _ e
  simp [LowerBoundedRangeIter.debug, Fmt.plain, debugStruct, debugFields] at e
  obtain ⟨rfl, e⟩ := hh _ _ _ _ (stop_cons (by simp)) (stop_cons (by simp)) e
  exact ⟨rfl, by simpa using e⟩

theorem BoundedSetIter.debug_readable : Readable (BoundedSetIter.debug .plain h) := by
  rintro ⟨x⟩ ⟨x'⟩ l m _ _ e
  simp only [BoundedSetIter.debug, Fmt.plain, debugStruct, debugFields, List.append_assoc, List.append_cancel_left_eq] at e
  have hl := debugList_readable (BoundedRangeIter.debug_readable hh) (fun a => by simp [BoundedRangeIter.debug, Fmt.plain, debugStruct])
    (fun a => by simp [BoundedRangeIter.debug, Fmt.plain, debugStruct])
  obtain ⟨rfl, e⟩ := hl _ _ _ _ (by simp [Stop]) (by simp [Stop]) e
  exact ⟨rfl, by simpa using e⟩

/-- C87. The texts printed for iterators determine their state. -/
theorem C87_iter_readable :
    Readable (BoundedRangeIter.debug .plain h) ∧ Readable (LowerBoundedRangeIter.debug .plain h) ∧
      Readable (BoundedSetIter.debug .plain h) ∧ Readable (LowerBoundedSetIter.debug .plain h) := by
  refine ⟨BoundedRangeIter.debug_readable hh, LowerBoundedRangeIter.debug_readable hh, BoundedSetIter.debug_readable hh, ?_⟩
  rintro ⟨x, y⟩ ⟨x', y'⟩ l m _ _ e
  simp [LowerBoundedSetIter.debug, Fmt.plain, debugStruct, debugFields] at e
  obtain ⟨rfl, e⟩ := BoundedSetIter.debug_readable hh _ _ _ _ (stop_cons (by simp)) (stop_cons (by simp)) e
  simp at e
  obtain ⟨rfl, e⟩ := LowerBoundedRangeIter.debug_readable hh _ _ _ _ (stop_cons (by simp)) (stop_cons (by simp)) e
  exact ⟨rfl, by simpa using e⟩

end

/-! ### Integers -/

/-- What `{:?}` prints for an integer (std). -/
def debugInt : Int → List Char
  | .ofNat n => Nat.toDigits 10 n
  | .negSucc n => '-' :: Nat.toDigits 10 (n + 1)

theorem digits_readable : Readable (Nat.toDigits 10) := by
  intro x y l m hl hm e
  have key : ∀ a b : List Char, (∀ c ∈ a, c.isDigit) → (∀ c ∈ b, c.isDigit) → a ++ l = b ++ m → a = b ∧ l = m := by
    have nd : ∀ {l : List Char} {c : Char} {k : List Char}, Stop l → c.isDigit → l ≠ c :: k := by
      rintro l c k (rfl | ⟨d, k', rfl, hd⟩) hc h
      · cases h
      · injection h with h1 h2
        subst h1
        simp only [List.mem_cons, List.not_mem_nil, or_false] at hd
        rcases hd with rfl | rfl | rfl | rfl <;> exact absurd hc (by decide)
    intro a
    induction a with
    | nil =>
      rintro (_ | ⟨c, b⟩) _ hb e
      · exact ⟨rfl, e⟩
      · exact absurd e (nd hl (hb c (by simp)))
    | cons c a ih =>
      rintro (_ | ⟨d, b⟩) ha hb e
      · exact absurd e.symm (nd hm (ha c (by simp)))
      · simp only [List.cons_append, List.cons.injEq] at e
        obtain ⟨rfl, rfl⟩ := ih b (fun x hx => ha x (List.mem_cons_of_mem _ hx)) (fun x hx => hb x (List.mem_cons_of_mem _ hx)) e.2
        exact ⟨by rw [e.1], rfl⟩
  have hd : ∀ n, ∀ c ∈ Nat.toDigits 10 n, c.isDigit := fun n c hc => Nat.isDigit_of_mem_toDigits (by decide) (by decide) hc
  obtain ⟨h1, h2⟩ := key _ _ (hd x) (hd y) e
  refine ⟨?_, h2⟩
  rw [← Nat.ofDigitChars_ten_toDigits (n := x), h1, Nat.ofDigitChars_ten_toDigits]

/-- C87. Integers, for example, print readably: so the theorems above apply to ranges and sets of integers. -/
theorem C87_int_readable : Readable debugInt := by
  have nm : ∀ (n : Nat) (l k : List Char), Nat.toDigits 10 n ++ l ≠ '-' :: k := by
    intro n l k e
    cases h : Nat.toDigits 10 n with
    | nil => exact Nat.toDigits_ne_nil h
    | cons c r =>
      have := Nat.isDigit_of_mem_toDigits (b := 10) (n := n) (c := c) (by decide) (by decide) (by simp [h])
      rw [h] at e
      obtain rfl : c = '-' := (List.cons.inj e).1
      exact absurd this (by decide)
  intro x y l m hl hm e
  cases x <;> cases y
  · obtain ⟨rfl, e'⟩ := digits_readable _ _ _ _ hl hm e; exact ⟨rfl, e'⟩
  · exact absurd e (nm _ _ _)
  · exact absurd e.symm (nm _ _ _)
  · obtain ⟨h, e'⟩ := digits_readable _ _ _ _ hl hm (List.cons.inj e).2
    obtain rfl := Nat.succ.inj h
    exact ⟨rfl, e'⟩

example : String.ofList ((Inner.bs ⟨[Samples.co (-1) 3]⟩).debug .plain debugInt "i32".toList) =
    "BoundedSet { ranges: [BoundedRange { start: LowerBound(Included(-1)), end: UpperBound(Excluded(3)) }] }" := by
  decide

theorem intercalate_one {α : Type} (sep v : List α) : sep.intercalate [v] = v := by simp [List.intercalate]

theorem intercalate_cons {α : Type} (sep v w : List α) (l : List (List α)) :
    sep.intercalate (v :: w :: l) = v ++ (sep ++ sep.intercalate (w :: l)) := by simp [List.intercalate, List.intersperse]

theorem debugList_eq (l : List (List Char)) : debugList l = "[".toList ++ ((", ".toList).intercalate l ++ "]".toList) := by
  have hrest : ∀ (l : List (List Char)) (v : List Char),
      v ++ debugRest l = (", ".toList).intercalate (v :: l) ++ "]".toList := by
    intro l
    induction l with
    | nil => intro v; rw [intercalate_one]; rfl
    | cons w l ih => intro v; rw [intercalate_cons, debugRest, List.append_assoc, ih w]; simp only [List.append_assoc]
  cases l with
  | nil => rfl
  | cons v l => rw [debugList, List.append_assoc, hrest]

/-- C87. The text of every range, in full. -/
theorem C87_debug_text_ranges (h : T → List Char) (ty : List Char) :
    (∀ t, (LowerBound.included t).debug .plain h = "LowerBound(Included(".toList ++ h t ++ "))".toList) ∧
    (∀ t, (LowerBound.excluded t).debug .plain h = "LowerBound(Excluded(".toList ++ h t ++ "))".toList) ∧
    (∀ t, (UpperBound.included t).debug .plain h = "UpperBound(Included(".toList ++ h t ++ "))".toList) ∧
    (∀ t, (UpperBound.excluded t).debug .plain h = "UpperBound(Excluded(".toList ++ h t ++ "))".toList) ∧
    (∀ a b, (Inner.br ⟨a, b⟩).debug .plain h ty =
      "BoundedRange { start: ".toList ++ a.debug .plain h ++ ", end: ".toList ++ b.debug .plain h ++ " }".toList) ∧
    (∀ a, (Inner.lbr ⟨a⟩).debug .plain h ty = "LowerBoundedRange { start: ".toList ++ a.debug .plain h ++ " }".toList) ∧
    (∀ b, (Inner.ubr ⟨b⟩).debug .plain h ty = "UpperBoundedRange { end: ".toList ++ b.debug .plain h ++ " }".toList) ∧
    (Inner.ur.debug .plain h ty = "UnboundedRange".toList) ∧
    Inner.er.debug .plain h ty = "EmptyRange { t: PhantomData<".toList ++ ty ++ "> }".toList := by
  refine ⟨?_, ?_, ?_, ?_, ?_, ?_, ?_, rfl, ?_⟩
  · intro t; simp [LowerBound.debug, Bound.debug, LowerBound.included, Fmt.plain, debugTuple]
  · intro t; simp [LowerBound.debug, Bound.debug, LowerBound.excluded, Fmt.plain, debugTuple]
  · intro t; simp [UpperBound.debug, Bound.debug, UpperBound.included, Fmt.plain, debugTuple]
  · intro t; simp [UpperBound.debug, Bound.debug, UpperBound.excluded, Fmt.plain, debugTuple]
  · intro a b; simp [Inner.debug, BoundedRange.debug, Fmt.plain, debugStruct, debugFields]
  · intro a; simp [Inner.debug, LowerBoundedRange.debug, Fmt.plain, debugStruct, debugFields]
  · intro b; simp [Inner.debug, UpperBoundedRange.debug, Fmt.plain, debugStruct, debugFields]
  · simp [Inner.debug, EmptyRange.debug, Fmt.plain, debugStruct, debugFields]

/-- C87. The text of every set, in full. -/
theorem C87_debug_text_sets (h : T → List Char) (ty : List Char) :
    (∀ l, (Inner.bs ⟨l⟩).debug .plain h ty =
      "BoundedSet { ranges: [".toList ++ (", ".toList).intercalate (l.map fun r => (Inner.br r).debug .plain h ty) ++ "] }".toList) ∧
    (∀ s r, (Inner.lbs ⟨s, r⟩).debug .plain h ty = "LowerBoundedSet { ranges: ".toList ++ (Inner.bs s).debug .plain h ty ++
      ", lower_bounded_range: ".toList ++ (Inner.lbr r).debug .plain h ty ++ " }".toList) ∧
    (∀ r s, (Inner.ubs ⟨r, s⟩).debug .plain h ty = "UpperBoundedSet { upper_bounded_range: ".toList ++ (Inner.ubr r).debug .plain h ty ++
      ", ranges: ".toList ++ (Inner.bs s).debug .plain h ty ++ " }".toList) ∧
    ((Inner.us .full).debug .plain h ty = "Full".toList) ∧
    ∀ r s r', (Inner.us (.piecewise ⟨r, s, r'⟩)).debug .plain h ty =
      "Piecewise(PiecewiseUnboundedSet { upper_bounded_range: ".toList ++ (Inner.ubr r).debug .plain h ty ++
      ", ranges: ".toList ++ (Inner.bs s).debug .plain h ty ++ ", lower_bounded_range: ".toList ++ (Inner.lbr r').debug .plain h ty ++
      " })".toList := by
  refine ⟨?_, ?_, ?_, rfl, ?_⟩
  · intro l
    simp only [Inner.debug, BoundedSet.debug, Fmt.plain, debugStruct, debugFields, debugList_eq]
    generalize (", ".toList).intercalate (l.map (BoundedRange.debug .plain h)) = x
    simp
  · intro s r; simp [Inner.debug, LowerBoundedSet.debug, Fmt.plain, debugStruct, debugFields]
  · intro r s; simp [Inner.debug, UpperBoundedSet.debug, Fmt.plain, debugStruct, debugFields]
  · intro r s r'; simp [Inner.debug, UnboundedSet.debug, PiecewiseUnboundedSet.debug, Fmt.plain, debugTuple, debugStruct, debugFields]

example : String.ofList ((Inner.us (.piecewise ⟨⟨.excluded 1⟩, ⟨[Samples.co 3 5, Samples.co 7 9]⟩, ⟨.included 11⟩⟩)).debug
    .plain debugInt "i32".toList) =
    "Piecewise(PiecewiseUnboundedSet { upper_bounded_range: UpperBoundedRange { end: UpperBound(Excluded(1)) }, " ++
    "ranges: BoundedSet { ranges: [BoundedRange { start: LowerBound(Included(3)), end: UpperBound(Excluded(5)) }, " ++
    "BoundedRange { start: LowerBound(Included(7)), end: UpperBound(Excluded(9)) }] }, " ++
    "lower_bounded_range: LowerBoundedRange { start: LowerBound(Included(11)) } })" := by
  decide +kernel

-- an element type whose texts run together is not readable
example : ¬Readable fun n : Nat => List.replicate n ' ' := fun h =>
  absurd (h 0 1 [' '] [] (Or.inr ⟨' ', [], rfl, by simp⟩) (Or.inl rfl) rfl).1 (by decide)

end Rangetools
