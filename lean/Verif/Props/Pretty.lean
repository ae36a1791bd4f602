import Verif.Proofs.Pretty

/-!
# C106: what `{:#?}` prints
-/

namespace Rangetools
variable {T : Type}

section
variable {h : T → List Char} (hh : Readable h)
include hh

/-- C106. The text that `{:#?}` prints for a value of any of the nine types determines the type and the value, and it can be
told where the text ends: indentation loses nothing, even if the texts of elements have spaces and line breaks of their own. -/
theorem C106_pretty_readable (ty : List Char) : Readable (Inner.debug .pretty h ty) := by
  intro x y l m hl hm e
  have ht : x.tag = y.tag := by rw [← tagOf_pretty h ty x l, e, tagOf_pretty]
  cases x <;> cases y <;> first | (simp [Inner.tag] at ht; done) | skip
  case br.br => obtain ⟨rfl, e'⟩ := BoundedRange.pretty_readable hh _ _ _ _ hl hm e; exact ⟨rfl, e'⟩
  case bs.bs => obtain ⟨rfl, e'⟩ := BoundedSet.pretty_readable hh _ _ _ _ hl hm e; exact ⟨rfl, e'⟩
  case lbr.lbr => obtain ⟨rfl, e'⟩ := LowerBoundedRange.pretty_readable hh _ _ _ _ hl hm e; exact ⟨rfl, e'⟩
  case lbs.lbs => obtain ⟨rfl, e'⟩ := LowerBoundedSet.pretty_readable hh _ _ _ _ hl hm e; exact ⟨rfl, e'⟩
  case ubr.ubr => obtain ⟨rfl, e'⟩ := UpperBoundedRange.pretty_readable hh _ _ _ _ hl hm e; exact ⟨rfl, e'⟩
  case ubs.ubs => obtain ⟨rfl, e'⟩ := UpperBoundedSet.pretty_readable hh _ _ _ _ hl hm e; exact ⟨rfl, e'⟩
  case us.us => obtain ⟨rfl, e'⟩ := UnboundedSet.pretty_readable hh _ _ _ _ hl hm e; exact ⟨rfl, e'⟩
  case ur.ur => exact ⟨rfl, List.append_cancel_left e⟩
  case er.er => exact ⟨rfl, List.append_cancel_left e⟩

/-- C106. `{:#?}` tells apart exactly what `{:?}` tells apart, whatever each prints for elements. -/
theorem C106_pretty_plain {h' : T → List Char} (hh' : Readable h') (ty : List Char) (a b : Inner T) :
    a.debug .pretty h ty = b.debug .pretty h ty ↔ a.debug .plain h' ty = b.debug .plain h' ty := by
  rw [C87_debug_injective hh' ty a b]
  exact ⟨(C106_pretty_readable hh ty).inj, fun e => e ▸ rfl⟩

/-- C106. So do the texts printed for iterators. -/
theorem C106_iter_readable :
    Readable (BoundedRangeIter.debug .pretty h) ∧ Readable (LowerBoundedRangeIter.debug .pretty h) ∧
      Readable (BoundedSetIter.debug .pretty h) ∧ Readable (LowerBoundedSetIter.debug .pretty h) := by
  have h1 : Readable (BoundedRangeIter.debug .pretty h) := by
    rintro ⟨x, y⟩ ⟨x', y'⟩ l m _ _ e
    obtain ⟨f, rfl⟩ := prettyStruct_cancel e
    obtain ⟨rfl, f⟩ := body_first hh f
    obtain ⟨rfl, f⟩ := body_first hh f
    exact ⟨rfl, rfl⟩
  have h2 : Readable (LowerBoundedRangeIter.debug .pretty h) := by
    rintro ⟨x⟩ ⟨x'⟩ l m _ _ e
    obtain ⟨f, rfl⟩ := prettyStruct_cancel e
    obtain ⟨rfl, f⟩ := body_first hh f
    exact ⟨rfl, rfl⟩
  have h3 : Readable (BoundedSetIter.debug .pretty h) := by
    rintro ⟨x⟩ ⟨x'⟩ l m _ _ e
    obtain ⟨f, rfl⟩ := prettyStruct_cancel e
    obtain ⟨rfl, f⟩ := body_first (prettyList_readable h1) f
    exact ⟨rfl, rfl⟩
  refine ⟨h1, h2, h3, ?_⟩
  rintro ⟨x, y⟩ ⟨x', y'⟩ l m _ _ e
  obtain ⟨f, rfl⟩ := prettyStruct_cancel e
  obtain ⟨rfl, f⟩ := body_first h3 f
  obtain ⟨rfl, f⟩ := body_first h2 f
  exact ⟨rfl, rfl⟩

end

/-- C106. The layout in full: if elements print on one line, the text is the lines of `Inner.layout`, each indented by four
spaces for every level of nesting, and no line has a line break inside. -/
theorem C106_pretty_layout {h : T → List Char} (hh : ∀ t, '\n' ∉ h t) {ty : List Char} (ht : '\n' ∉ ty) (x : Inner T) :
    x.debug .pretty h ty ++ ['\n'] = block (x.layout h ty 0 [] []) ∧ ∀ l ∈ x.layout h ty 0 [] [], '\n' ∉ l.2 :=
  ⟨by simpa using (Inner.prints hh ht x).text [] [] (by simp) (by simp),
    (Inner.prints hh ht x).clean 0 [] [] (by simp) (by simp)⟩

/-- How many lines a value takes. -/
def Inner.height : Inner T → Nat
  | .br _ => 12
  | .bs s => if s.ranges = [] then 3 else 12 * s.ranges.length + 4
  | .lbr _ => 7
  | .lbs s => (if s.ranges.ranges = [] then 3 else 12 * s.ranges.ranges.length + 4) + 9
  | .ubr _ => 7
  | .ubs s => (if s.ranges.ranges = [] then 3 else 12 * s.ranges.ranges.length + 4) + 9
  | .ur => 1
  | .us .full => 1
  | .us (.piecewise s) => (if s.ranges.ranges = [] then 3 else 12 * s.ranges.ranges.length + 4) + 18
  | .er => 3

theorem BoundedSet.layout_length (h : T → List Char) (s : BoundedSet T) (d : Nat) (pre post : List Char) :
    (s.layout h d pre post).length = if s.ranges = [] then 3 else 12 * s.ranges.length + 4 := by
  have hb : ∀ (b : Bound T) d pre post, (b.layout h d pre post).length = 3 := by intro b d pre post; cases b <;> rfl
  have hr : ∀ (r : BoundedRange T) d pre post, (r.layout h d pre post).length = 12 := by
    intro r d pre post
    simp [BoundedRange.layout, Layout.struct, LowerBound.layout, UpperBound.layout, Layout.tuple, hb]
  have hs : ∀ (l : List (BoundedRange T)) d, ((l.map (BoundedRange.layout h)).map fun v => v d [] [',']).flatten.length =
      12 * l.length := by
    intro l d
    induction l with
    | nil => rfl
    | cons r l ih =>
      rw [List.map_cons, List.map_cons, List.flatten_cons, List.length_append, ih, hr, List.length_cons]; omega
  simp only [BoundedSet.layout, Layout.struct, Layout.list, List.isEmpty_iff, List.map_eq_nil_iff, List.map_cons, List.map_nil,
    List.flatten_cons, List.flatten_nil, List.append_nil, List.length_append, List.length_cons, List.length_nil]
  split
  · rfl
  · simp only [List.length_append, hs, List.length_cons, List.length_nil]; omega

theorem block_count {ls : List (Nat × List Char)} (hl : ∀ l ∈ ls, '\n' ∉ l.2) : (block ls).count '\n' = ls.length := by
  induction ls with
  | nil => rfl
  | cons l ls ih =>
    have h1 : (List.replicate (4 * l.1) ' ').count '\n' = 0 := by
      rw [List.count_eq_zero]; exact fun h => absurd (List.eq_of_mem_replicate h) (by decide)
    have h2 : l.2.count '\n' = 0 := List.count_eq_zero.2 (hl l (by simp))
    have e : block (l :: ls) = List.replicate (4 * l.1) ' ' ++ l.2 ++ ['\n'] ++ block ls := by simp [block]
    rw [e, List.count_append, List.count_append, List.count_append, h1, h2, ih fun x hx => hl x (List.mem_cons_of_mem _ hx)]
    simp; omega

/-- C106. The number of lines: twelve for every range of a set, and a constant that depends on the type. -/
theorem C106_pretty_height {h : T → List Char} (hh : ∀ t, '\n' ∉ h t) {ty : List Char} (ht : '\n' ∉ ty) (x : Inner T) :
    (x.debug .pretty h ty ++ ['\n']).count '\n' = x.height := by
  obtain ⟨e, hc⟩ := C106_pretty_layout hh ht x
  rw [e, block_count hc]
  have hb : ∀ (b : Bound T) d pre post, (b.layout h d pre post).length = 3 := by intro b d pre post; cases b <;> rfl
  rcases x with r | s | r | s | r | s | _ | (_ | s) | _ <;>
    simp [Inner.layout, Inner.height, Layout.struct, Layout.tuple, Layout.word, BoundedRange.layout, LowerBoundedRange.layout,
      UpperBoundedRange.layout, LowerBound.layout, UpperBound.layout, BoundedSet.layout_length, hb]
  all_goals omega

theorem debugInt_line (n : Int) : '\n' ∉ debugInt n := by
  have hd : ∀ n : Nat, '\n' ∉ Nat.toDigits 10 n := fun n hc =>
    absurd (Nat.isDigit_of_mem_toDigits (b := 10) (by decide) (by decide) hc) (by decide)
  cases n with
  | ofNat n => exact hd n
  | negSucc n => simp only [debugInt, List.mem_cons, not_or]; exact ⟨by decide, hd _⟩

-- a set of two ranges of integers, and the theorems about it
example : String.ofList ((Inner.bs ⟨[Samples.co (-1) 3, Samples.co 5 7]⟩).debug .pretty debugInt "i32".toList) =
"BoundedSet {
    ranges: [
        BoundedRange {
            start: LowerBound(
                Included(
                    -1,
                ),
            ),
            end: UpperBound(
                Excluded(
                    3,
                ),
            ),
        },
        BoundedRange {
            start: LowerBound(
                Included(
                    5,
                ),
            ),
            end: UpperBound(
                Excluded(
                    7,
                ),
            ),
        },
    ],
}" := by
  decide +kernel

example : ((Inner.bs ⟨[Samples.co (-1) 3, Samples.co 5 7]⟩).debug .pretty debugInt "i32".toList ++ ['\n']).count '\n' = 28 :=
  C106_pretty_height debugInt_line (by decide) _

example : (Inner.bs ⟨[Samples.co (-1) 3]⟩).debug .pretty debugInt "i32".toList ≠
    (Inner.bs ⟨[Samples.co (-1) 4]⟩).debug .pretty debugInt "i32".toList := fun e =>
  absurd ((C106_pretty_plain C87_int_readable C87_int_readable _ _ _).1 e) (by decide)

example : String.ofList ((Inner.us (.piecewise ⟨⟨.excluded 1⟩, ⟨[]⟩, ⟨.included 11⟩⟩)).debug .pretty debugInt "i32".toList) =
"Piecewise(
    PiecewiseUnboundedSet {
        upper_bounded_range: UpperBoundedRange {
            end: UpperBound(
                Excluded(
                    1,
                ),
            ),
        },
        ranges: BoundedSet {
            ranges: [],
        },
        lower_bounded_range: LowerBoundedRange {
            start: LowerBound(
                Included(
                    11,
                ),
            ),
        },
    },
)" := by
  decide +kernel

end Rangetools
