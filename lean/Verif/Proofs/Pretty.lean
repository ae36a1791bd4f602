import Verif.Spec.Pretty
import Verif.Props.Debug

/-! # `{:#?}`: padding can be undone -/

namespace Rangetools
variable {T : Type}

/-- Whether the next character begins a line. -/
def atNewline : Bool → List Char → Bool
  | nl, [] => nl
  | _, c :: cs => atNewline (c == '\n') cs

theorem atNewline_append (nl : Bool) (s t : List Char) : atNewline nl (s ++ t) = atNewline (atNewline nl s) t := by
  induction s generalizing nl with
  | nil => rfl
  | cons c s ih => exact ih _

theorem pad_append (nl : Bool) (s t : List Char) : pad nl (s ++ t) = pad nl s ++ pad (atNewline nl s) t := by
  induction s generalizing nl with
  | nil => rfl
  | cons c s ih => simp [pad, atNewline, ih]

theorem pad_cancel {nl : Bool} {s s' r r' : List Char} {c c' : Char} (hs : atNewline nl s = true)
    (hs' : atNewline nl s' = true) (hc : c ≠ ' ') (hc' : c' ≠ ' ') (e : pad nl s ++ c :: r = pad nl s' ++ c' :: r') :
    s = s' ∧ c :: r = c' :: r' := by
  induction s generalizing nl s' with
  | nil =>
    cases s' with
    | nil => exact ⟨rfl, e⟩
    | cons d s' =>
      obtain rfl : nl = true := hs
      simp [pad] at e
      exact absurd e.1 hc
  | cons d s ih =>
    cases s' with
    | nil =>
      obtain rfl : nl = true := hs'
      simp [pad] at e
      exact absurd e.1.symm hc'
    | cons d' s' =>
      simp only [pad, List.append_assoc, List.append_cancel_left_eq, List.cons_append, List.cons.injEq] at e
      obtain ⟨rfl, e⟩ := e
      obtain ⟨rfl, e'⟩ := ih hs hs' e
      exact ⟨rfl, e'⟩

/-- The fields or elements before they are indented. -/
def body (vs : List (List Char)) : List Char := (vs.map fun v => v ++ ",\n".toList).flatten

theorem atNewline_body (vs : List (List Char)) : atNewline true (body vs) = true := by
  induction vs with
  | nil => rfl
  | cons v vs ih =>
    have : body (v :: vs) = v ++ ",\n".toList ++ body vs := rfl
    rw [this, atNewline_append, atNewline_append]
    exact ih

theorem prettyLines_eq (vs : List (List Char)) : (vs.map prettyLine).flatten = pad true (body vs) := by
  induction vs with
  | nil => rfl
  | cons v vs ih =>
    have : body (v :: vs) = v ++ ",\n".toList ++ body vs := rfl
    rw [this, pad_append, List.map_cons, List.flatten_cons, ih]
    congr 2
    rw [atNewline_append]; rfl

theorem prettyLines_cancel {vs vs' : List (List Char)} {c c' : Char} {l m : List Char} (hc : c ≠ ' ') (hc' : c' ≠ ' ')
    (e : (vs.map prettyLine).flatten ++ c :: l = (vs'.map prettyLine).flatten ++ c' :: m) :
    body vs = body vs' ∧ c :: l = c' :: m := by
  rw [prettyLines_eq, prettyLines_eq] at e
  exact pad_cancel (atNewline_body _) (atNewline_body _) hc hc' e

theorem prettyTuple_cancel {name : String} {v v' l m : List Char}
    (e : prettyTuple name v ++ l = prettyTuple name v' ++ m) : v = v' ∧ l = m := by
  simp only [prettyTuple, List.append_assoc, List.append_cancel_left_eq] at e
  have := prettyLines_cancel (vs := [v]) (vs' := [v']) (c := ')') (c' := ')') (l := l) (m := m) (by decide) (by decide)
    (by simpa using e)
  simpa [body] using this

theorem prettyStruct_cancel {name : String} {fs fs' : List (String × List Char)} {l m : List Char}
    (e : prettyStruct name fs ++ l = prettyStruct name fs' ++ m) :
    body (fs.map fun f => f.1.toList ++ ": ".toList ++ f.2) = body (fs'.map fun f => f.1.toList ++ ": ".toList ++ f.2) ∧
      l = m := by
  simp only [prettyStruct, List.append_assoc, List.append_cancel_left_eq] at e
  have := prettyLines_cancel (vs := fs.map fun f => f.1.toList ++ ": ".toList ++ f.2)
    (vs' := fs'.map fun f => f.1.toList ++ ": ".toList ++ f.2) (c := '}') (c' := '}') (l := l) (m := m)
    (by decide) (by decide) (by simpa [List.map_map, Function.comp_def] using e)
  exact ⟨this.1, by simpa using this.2⟩

theorem body_inj {α : Type} {g : α → List Char} (hg : Readable g) (x y : List α)
    (e : body (x.map g) = body (y.map g)) : x = y := by
  induction x generalizing y with
  | nil =>
    cases y with
    | nil => rfl
    | cons b y => simp [body] at e
  | cons a x ih =>
    cases y with
    | nil => simp [body] at e
    | cons b y =>
      have ec : ∀ a x, body ((a :: x).map g) = g a ++ (',' :: '\n' :: body (x.map g)) := by
        intro a x; simp [body]
      rw [ec, ec] at e
      obtain ⟨rfl, e⟩ := hg _ _ _ _ (stop_cons (by simp)) (stop_cons (by simp)) e
      obtain rfl := ih _ (by simpa using e)
      rfl

theorem prettyList_readable {α : Type} {g : α → List Char} (hg : Readable g) :
    Readable fun l : List α => prettyList (l.map g) := by
  rintro (_ | ⟨a, x⟩) (_ | ⟨b, y⟩) l m _ _ e
  · exact ⟨rfl, by simpa [prettyList] using e⟩
  · simp [prettyList] at e
  · simp [prettyList] at e
  · simp only [List.map_cons, prettyList, List.append_assoc, List.append_cancel_left_eq] at e
    have := prettyLines_cancel (vs := (a :: x).map g) (vs' := (b :: y).map g) (c := ']') (c' := ']') (l := l) (m := m)
      (by decide) (by decide) (by simpa using e)
    exact ⟨body_inj hg _ _ this.1, by simpa using this.2⟩

section
variable {h : T → List Char} (hh : Readable h)
include hh

theorem Bound.pretty_readable : Readable (Bound.debug .pretty h) := by
  intro x y l m _ _ e
  cases x <;> cases y <;> simp only [Bound.debug, Fmt.pretty] at e
  · obtain ⟨f, rfl⟩ := prettyTuple_cancel e; exact ⟨by rw [hh.inj f], rfl⟩
  · simp [prettyTuple] at e
  · simp [prettyTuple] at e
  · obtain ⟨f, rfl⟩ := prettyTuple_cancel e; exact ⟨by rw [hh.inj f], rfl⟩

theorem LowerBound.pretty_readable : Readable (LowerBound.debug .pretty h) := by
  rintro ⟨x⟩ ⟨y⟩ l m _ _ e
  obtain ⟨f, rfl⟩ := prettyTuple_cancel e
  exact ⟨congrArg _ ((Bound.pretty_readable hh).inj f), rfl⟩

theorem UpperBound.pretty_readable : Readable (UpperBound.debug .pretty h) := by
  rintro ⟨x⟩ ⟨y⟩ l m _ _ e
  obtain ⟨f, rfl⟩ := prettyTuple_cancel e
  exact ⟨congrArg _ ((Bound.pretty_readable hh).inj f), rfl⟩

omit hh in
theorem body_one {name : String} {v v' : List Char}
    (e : body [name.toList ++ ": ".toList ++ v] = body [name.toList ++ ": ".toList ++ v']) : v = v' := by
  simpa [body] using e

omit hh in
/-- Reading the first field. -/
theorem body_first {α : Type} {g : α → List Char} (hg : Readable g) {name : String} {x y : α} {vs ws : List (List Char)}
    (e : body ((name.toList ++ ": ".toList ++ g x) :: vs) = body ((name.toList ++ ": ".toList ++ g y) :: ws)) :
    x = y ∧ body vs = body ws := by
  have ec : ∀ a vs, body ((name.toList ++ ": ".toList ++ g a) :: vs) =
      name.toList ++ ": ".toList ++ (g a ++ (',' :: '\n' :: body vs)) := by
    intro a vs; simp [body]
  rw [ec, ec] at e
  obtain ⟨rfl, e⟩ := hg _ _ _ _ (stop_cons (by simp)) (stop_cons (by simp)) (List.append_cancel_left e)
  exact ⟨rfl, by simpa using e⟩

theorem BoundedRange.pretty_readable : Readable (BoundedRange.debug .pretty h) := by
  rintro ⟨x, y⟩ ⟨x', y'⟩ l m _ _ e
  obtain ⟨f, rfl⟩ := prettyStruct_cancel e
  obtain ⟨rfl, f⟩ := body_first (LowerBound.pretty_readable hh) f
  obtain ⟨rfl, f⟩ := body_first (UpperBound.pretty_readable hh) f
  exact ⟨rfl, rfl⟩

theorem LowerBoundedRange.pretty_readable : Readable (LowerBoundedRange.debug .pretty h) := by
  rintro ⟨x⟩ ⟨x'⟩ l m _ _ e
  obtain ⟨f, rfl⟩ := prettyStruct_cancel e
  obtain ⟨rfl, f⟩ := body_first (LowerBound.pretty_readable hh) f
  exact ⟨rfl, rfl⟩

theorem UpperBoundedRange.pretty_readable : Readable (UpperBoundedRange.debug .pretty h) := by
  rintro ⟨x⟩ ⟨x'⟩ l m _ _ e
  obtain ⟨f, rfl⟩ := prettyStruct_cancel e
  obtain ⟨rfl, f⟩ := body_first (UpperBound.pretty_readable hh) f
  exact ⟨rfl, rfl⟩

theorem BoundedSet.pretty_readable : Readable (BoundedSet.debug .pretty h) := by
  rintro ⟨x⟩ ⟨x'⟩ l m _ _ e
  obtain ⟨f, rfl⟩ := prettyStruct_cancel e
  obtain ⟨rfl, f⟩ := body_first (prettyList_readable (BoundedRange.pretty_readable hh)) f
  exact ⟨rfl, rfl⟩

theorem LowerBoundedSet.pretty_readable : Readable (LowerBoundedSet.debug .pretty h) := by
  rintro ⟨x, y⟩ ⟨x', y'⟩ l m _ _ e
  obtain ⟨f, rfl⟩ := prettyStruct_cancel e
  obtain ⟨rfl, f⟩ := body_first (BoundedSet.pretty_readable hh) f
  obtain ⟨rfl, f⟩ := body_first (LowerBoundedRange.pretty_readable hh) f
  exact ⟨rfl, rfl⟩

theorem UpperBoundedSet.pretty_readable : Readable (UpperBoundedSet.debug .pretty h) := by
  rintro ⟨x, y⟩ ⟨x', y'⟩ l m _ _ e
  obtain ⟨f, rfl⟩ := prettyStruct_cancel e
  obtain ⟨rfl, f⟩ := body_first (UpperBoundedRange.pretty_readable hh) f
  obtain ⟨rfl, f⟩ := body_first (BoundedSet.pretty_readable hh) f
  exact ⟨rfl, rfl⟩

theorem PiecewiseUnboundedSet.pretty_readable : Readable (PiecewiseUnboundedSet.debug .pretty h) := by
  rintro ⟨x, y, z⟩ ⟨x', y', z'⟩ l m _ _ e
  obtain ⟨f, rfl⟩ := prettyStruct_cancel e
  obtain ⟨rfl, f⟩ := body_first (UpperBoundedRange.pretty_readable hh) f
  obtain ⟨rfl, f⟩ := body_first (BoundedSet.pretty_readable hh) f
  obtain ⟨rfl, f⟩ := body_first (LowerBoundedRange.pretty_readable hh) f
  exact ⟨rfl, rfl⟩

theorem UnboundedSet.pretty_readable : Readable (UnboundedSet.debug .pretty h) := by
  intro x y l m _ _ e
  cases x <;> cases y
  · exact ⟨rfl, List.append_cancel_left e⟩
  · simp [UnboundedSet.debug, Fmt.pretty, prettyTuple] at e
  · simp [UnboundedSet.debug, Fmt.pretty, prettyTuple] at e
  · obtain ⟨f, rfl⟩ := prettyTuple_cancel e
    exact ⟨by rw [(PiecewiseUnboundedSet.pretty_readable hh).inj f], rfl⟩

end

theorem tagOf_pretty (h : T → List Char) (ty : List Char) (x : Inner T) (l : List Char) :
    tagOf (x.debug .pretty h ty ++ l) = x.tag := by
  have e : ∀ (name : String) (fs : List (String × List Char)) (l : List Char), prettyStruct name fs ++ l =
      name.toList ++ (' ' :: '{' :: '\n' ::
        ((fs.map fun f => prettyLine (f.1.toList ++ ": ".toList ++ f.2)).flatten ++ ('}' :: l))) := by
    intro name fs l; simp [prettyStruct]
  have c : ∀ (s : String) (cs : List Char), s.toList = cs → ∀ k, tagOf (cs ++ k) = tagOf (s.toList ++ k) := by
    rintro s _ rfl k; rfl
  cases x with
  | br r =>
    exact (congrArg tagOf (e _ _ _)).trans
      (c _ ['B', 'o', 'u', 'n', 'd', 'e', 'd', 'R', 'a', 'n', 'g', 'e'] (by simp) _).symm
  | bs r =>
    exact (congrArg tagOf (e _ _ _)).trans
      (c _ ['B', 'o', 'u', 'n', 'd', 'e', 'd', 'S', 'e', 't'] (by simp) _).symm
  | lbr r =>
    exact (congrArg tagOf (e _ _ _)).trans
      (c _ ['L', 'o', 'w', 'e', 'r', 'B', 'o', 'u', 'n', 'd', 'e', 'd', 'R', 'a', 'n', 'g', 'e'] (by simp) _).symm
  | lbs r =>
    exact (congrArg tagOf (e _ _ _)).trans
      (c _ ['L', 'o', 'w', 'e', 'r', 'B', 'o', 'u', 'n', 'd', 'e', 'd', 'S', 'e', 't'] (by simp) _).symm
  | ubr r =>
    exact (congrArg tagOf (e _ _ _)).trans
      (c _ ['U', 'p', 'p', 'e', 'r', 'B', 'o', 'u', 'n', 'd', 'e', 'd', 'R', 'a', 'n', 'g', 'e'] (by simp) _).symm
  | ubs r =>
    exact (congrArg tagOf (e _ _ _)).trans
      (c _ ['U', 'p', 'p', 'e', 'r', 'B', 'o', 'u', 'n', 'd', 'e', 'd', 'S', 'e', 't'] (by simp) _).symm
  | ur => exact (c "UnboundedRange" ['U', 'n', 'b', 'o', 'u', 'n', 'd', 'e', 'd', 'R', 'a', 'n', 'g', 'e'] (by simp) _).symm
  | er =>
    exact (congrArg tagOf (e _ _ _)).trans
      (c _ ['E', 'm', 'p', 't', 'y', 'R', 'a', 'n', 'g', 'e'] (by simp) _).symm
  | us s =>
    cases s with
    | full => exact (c "Full" ['F', 'u', 'l', 'l'] (by simp) _).symm
    | piecewise s =>
      refine (congrArg tagOf (?_ : _ = "Piecewise".toList ++ ('(' :: '\n' :: (prettyLine (s.debug .pretty h) ++ (')' :: l))))).trans
        (c _ ['P', 'i', 'e', 'c', 'e', 'w', 'i', 's', 'e'] (by simp) _).symm
      simp [Inner.debug, UnboundedSet.debug, Fmt.pretty, prettyTuple]

/-! ### Layout -/

theorem atNewline_no_nl {t : List Char} (ht : '\n' ∉ t) (nl : Bool) (hn : t ≠ [] ∨ nl = false) : atNewline nl t = false := by
  induction t generalizing nl with
  | nil => simpa [atNewline] using hn
  | cons c t ih =>
    simp only [List.mem_cons, not_or] at ht
    exact ih ht.2 _ (Or.inr (by simpa using fun h => ht.1 h.symm))

theorem pad_no_nl {t : List Char} (ht : '\n' ∉ t) : pad false t = t := by
  induction t with
  | nil => rfl
  | cons c t ih =>
    simp only [List.mem_cons, not_or] at ht
    have : (c == '\n') = false := by simpa using fun h => ht.1 h.symm
    simp [pad, this, ih ht.2]

theorem pad_line {t : List Char} (ht : '\n' ∉ t) (r : List Char) :
    pad true (t ++ '\n' :: r) = "    ".toList ++ (t ++ '\n' :: pad true r) := by
  cases t with
  | nil => simp [pad]
  | cons c t =>
    simp only [List.mem_cons, not_or] at ht
    have hc : (c == '\n') = false := by simpa using fun h => ht.1 h.symm
    simp only [List.cons_append, pad, hc, if_true, pad_append, pad_no_nl ht.2, List.append_cancel_left_eq, List.cons.injEq,
      true_and]
    simp [atNewline_no_nl ht.2 false (Or.inr rfl)]

/-- One level deeper. -/
def deeper (ls : List (Nat × List Char)) : List (Nat × List Char) := ls.map fun l => (l.1 + 1, l.2)

theorem pad_block {ls : List (Nat × List Char)} (hl : ∀ l ∈ ls, '\n' ∉ l.2) : pad true (block ls) = block (deeper ls) := by
  induction ls with
  | nil => rfl
  | cons l ls ih =>
    have e : ∀ (l : Nat × List Char) ls, block (l :: ls) = List.replicate (4 * l.1) ' ' ++ l.2 ++ '\n' :: block ls := by
      intro l ls; simp [block]
    have h1 : '\n' ∉ List.replicate (4 * l.1) ' ' ++ l.2 := by
      simp only [List.mem_append, not_or]
      exact ⟨fun h => absurd (List.eq_of_mem_replicate h) (by decide), hl l (by simp)⟩
    have h2 : deeper (l :: ls) = (l.1 + 1, l.2) :: deeper ls := rfl
    rw [e, pad_line h1, ih fun x hx => hl x (List.mem_cons_of_mem _ hx), h2, e]
    have : List.replicate (4 * (l.1 + 1)) ' ' = "    ".toList ++ List.replicate (4 * l.1) ' ' := by
      rw [show 4 * (l.1 + 1) = 4 + 4 * l.1 by omega, ← List.replicate_append_replicate]; rfl
    simp only [this, List.append_assoc]

theorem block_append (a b : List (Nat × List Char)) : block (a ++ b) = block a ++ block b := by simp [block]

theorem block_one (t : List Char) : block [(0, t)] = t ++ ['\n'] := by simp [block]

/-- What a value prints between `pre` and `post`: lines without line breaks inside, whose depth can be changed. -/
structure Prints (v : List Char) (f : Layout) : Prop where
  text : ∀ pre post, '\n' ∉ pre → '\n' ∉ post → pre ++ v ++ post ++ ['\n'] = block (f 0 pre post)
  clean : ∀ d pre post, '\n' ∉ pre → '\n' ∉ post → ∀ l ∈ f d pre post, '\n' ∉ l.2
  deep : ∀ d pre post, deeper (f d pre post) = f (d + 1) pre post

theorem comma_nl : ",\n".toList = [',', '\n'] := by decide

theorem Prints.line {v : List Char} {f : Layout} (hp : Prints v f) {pre : List Char} (h : '\n' ∉ pre) :
    prettyLine (pre ++ v) = block (f 1 pre [',']) := by
  have e : pre ++ v ++ ",\n".toList = pre ++ v ++ [','] ++ ['\n'] := by rw [comma_nl]; simp
  rw [prettyLine, e, hp.text _ _ h (by decide), pad_block (hp.clean _ _ _ h (by decide)), hp.deep]

theorem Prints.word {t : List Char} (ht : '\n' ∉ t) : Prints t (.word t) := by
  refine ⟨?_, ?_, fun _ _ _ => rfl⟩
  · intro pre post _ _; simp [Layout.word, block]
  · intro d pre post h1 h2 l hl
    obtain rfl : l = (d, pre ++ t ++ post) := by simpa [Layout.word] using hl
    simp [h1, h2, ht]

theorem deeper_append (a b : List (Nat × List Char)) : deeper (a ++ b) = deeper a ++ deeper b := by simp [deeper]

theorem deeper_one (d : Nat) (t : List Char) : deeper [(d, t)] = [(d + 1, t)] := rfl

theorem Prints.tuple {v : List Char} {f : Layout} (hp : Prints v f) {name : String} (hn : '\n' ∉ name.toList) :
    Prints (prettyTuple name v) (.tuple name.toList f) := by
  have e1 : "(\n".toList = ['(', '\n'] := by decide
  have e2 : ")".toList = [')'] := by decide
  refine ⟨?_, ?_, ?_⟩
  · intro pre post _ _
    have := hp.line (pre := []) (by simp)
    rw [prettyTuple, ← List.nil_append v, this, e1, e2, Layout.tuple, block_append, block_append, block_one, block_one]
    simp only [List.append_assoc, List.cons_append, List.nil_append]
  · intro d pre post h1 h2 l hl
    simp only [Layout.tuple, List.mem_append, List.mem_singleton] at hl
    rcases hl with (rfl | hl) | rfl
    · simp [h1, hn]
    · exact hp.clean _ _ _ (by simp) (by simp) _ hl
    · simp [h2]
  · intro d pre post
    simp only [Layout.tuple, deeper_append, deeper_one, hp.deep]

theorem deeper_flatten {α : Type} (g : α → List (Nat × List Char)) (l : List α) :
    deeper (l.map g).flatten = (l.map fun x => deeper (g x)).flatten := by
  induction l with
  | nil => rfl
  | cons a l ih => simp only [List.map_cons, List.flatten_cons, deeper_append, ih]

theorem block_flatten {α : Type} (g : α → List (Nat × List Char)) (l : List α) :
    block (l.map g).flatten = (l.map fun x => block (g x)).flatten := by
  induction l with
  | nil => rfl
  | cons a l ih => simp only [List.map_cons, List.flatten_cons, block_append, ih]

/-- A field and its layout. -/
structure Field where
  name : String
  text : List Char
  lines : Layout

theorem Prints.struct {fs : List Field} {name : String} (hn : '\n' ∉ name.toList)
    (hf : ∀ f ∈ fs, '\n' ∉ f.name.toList ∧ Prints f.text f.lines) :
    Prints (prettyStruct name (fs.map fun f => (f.name, f.text))) (.struct name (fs.map fun f => (f.name, f.lines))) := by
  have e1 : " {\n".toList = [' ', '{', '\n'] := by decide
  have e2 : "}".toList = ['}'] := by decide
  have e3 : ": ".toList = [':', ' '] := by decide
  refine ⟨?_, ?_, ?_⟩
  · intro pre post _ _
    have : (fs.map fun f => prettyLine (f.name.toList ++ [':', ' '] ++ f.text)).flatten =
        (fs.map fun f => block (f.lines 1 (f.name.toList ++ [':', ' ']) [','])).flatten := by
      congr 1
      refine List.map_congr_left fun f hf' => (hf f hf').2.line ?_
      simp [(hf f hf').1]
    simp only [prettyStruct, List.map_map, Function.comp_def, e1, e2, e3]
    rw [this]
    simp only [Layout.struct, List.map_map, Function.comp_def]
    rw [block_append, block_append, block_flatten, block_one, block_one]
    simp only [List.append_assoc, List.cons_append, List.nil_append]
  · intro d pre post h1 h2 l hl
    simp only [Layout.struct, List.map_map, Function.comp_def, List.mem_append, List.mem_singleton, List.mem_flatten,
      List.mem_map] at hl
    rcases hl with (rfl | ⟨_, ⟨f, hf', rfl⟩, hl⟩) | rfl
    · simp [h1, hn]
    · exact (hf f hf').2.clean _ _ _ (by simp [(hf f hf').1]) (by simp) _ hl
    · simp [h2]
  · intro d pre post
    simp only [Layout.struct, List.map_map, Function.comp_def, deeper_append, deeper_one, deeper_flatten]
    congr 3
    exact List.map_congr_left fun f hf' => (hf f hf').2.deep _ _ _

theorem Prints.list {α : Type} {g : α → List Char} {f : α → Layout} (hf : ∀ x, Prints (g x) (f x)) (l : List α) :
    Prints (prettyList (l.map g)) (.list (l.map f)) := by
  cases l with
  | nil => exact ⟨fun pre post _ _ => by simp [prettyList, Layout.list, block],
      fun d pre post h1 h2 l hl => by
        obtain rfl : l = (d, pre ++ ['[', ']'] ++ post) := by simpa [Layout.list] using hl
        simp [h1, h2],
      fun _ _ _ => rfl⟩
  | cons a l =>
    have e0 : ∀ d pre post, Layout.list ((a :: l).map f) d pre post =
        [(d, pre ++ ['['])] ++ ((a :: l).map fun v => f v (d + 1) [] [',']).flatten ++ [(d, [']'] ++ post)] := by
      intro d pre post; simp [Layout.list, Function.comp_def]
    have e1 : "[\n".toList = ['[', '\n'] := by decide
    have e2 : "]".toList = [']'] := by decide
    refine ⟨?_, ?_, ?_⟩
    · intro pre post _ _
      have e3 : prettyList ((a :: l).map g) =
          ['[', '\n'] ++ ((a :: l).map fun x => prettyLine (g x)).flatten ++ [']'] := by
        rw [← e1, ← e2]; simp [prettyList, Function.comp_def]
      have : ((a :: l).map fun x => prettyLine (g x)).flatten = ((a :: l).map fun x => block (f x 1 [] [','])).flatten := by
        congr 1
        exact List.map_congr_left fun x _ => by simpa using (hf x).line (pre := []) (by simp)
      rw [e0, e3, this, block_append, block_append, block_flatten, block_one, block_one]
      simp only [List.append_assoc, List.cons_append, List.nil_append]
    · intro d pre post h1 h2 k hk
      rw [e0] at hk
      simp only [List.mem_append, List.mem_singleton, List.mem_flatten, List.mem_map] at hk
      rcases hk with (rfl | ⟨_, ⟨x, _, rfl⟩, hk⟩) | rfl
      · simp [h1]
      · exact (hf x).clean _ _ _ (by simp) (by simp) _ hk
      · simp [h2]
    · intro d pre post
      rw [e0, e0]
      simp only [deeper_append, deeper_one, deeper_flatten, (hf _).deep]

section
variable {h : T → List Char} (hh : ∀ t, '\n' ∉ h t)
include hh

theorem Bound.prints (b : Bound T) : Prints (b.debug .pretty h) (b.layout h) := by
  cases b
  · exact (Prints.word (hh _)).tuple (by decide)
  · exact (Prints.word (hh _)).tuple (by decide)

theorem LowerBound.prints (b : LowerBound T) : Prints (b.debug .pretty h) (b.layout h) :=
  (Bound.prints hh b.b).tuple (by decide)

theorem UpperBound.prints (b : UpperBound T) : Prints (b.debug .pretty h) (b.layout h) :=
  (Bound.prints hh b.b).tuple (by decide)

theorem BoundedRange.prints (r : BoundedRange T) : Prints (r.debug .pretty h) (r.layout h) :=
  Prints.struct (fs := [⟨"start", _, r.start.layout h⟩, ⟨"end", _, r.stop.layout h⟩]) (by decide) (by
    simp only [List.forall_mem_cons, List.not_mem_nil, false_implies, implies_true, and_true]
    exact ⟨⟨by decide, LowerBound.prints hh _⟩, by decide, UpperBound.prints hh _⟩)

theorem LowerBoundedRange.prints (r : LowerBoundedRange T) : Prints (r.debug .pretty h) (r.layout h) :=
  Prints.struct (fs := [⟨"start", _, r.start.layout h⟩]) (by decide) (by
    simp only [List.forall_mem_cons, List.not_mem_nil, false_implies, implies_true, and_true]
    exact ⟨by decide, LowerBound.prints hh _⟩)

theorem UpperBoundedRange.prints (r : UpperBoundedRange T) : Prints (r.debug .pretty h) (r.layout h) :=
  Prints.struct (fs := [⟨"end", _, r.stop.layout h⟩]) (by decide) (by
    simp only [List.forall_mem_cons, List.not_mem_nil, false_implies, implies_true, and_true]
    exact ⟨by decide, UpperBound.prints hh _⟩)

theorem BoundedSet.prints (s : BoundedSet T) : Prints (s.debug .pretty h) (s.layout h) :=
  Prints.struct (name := "BoundedSet") (fs := [⟨"ranges", _, .list (s.ranges.map (BoundedRange.layout h))⟩]) (by decide) (by
    simp only [List.forall_mem_cons, List.not_mem_nil, false_implies, implies_true, and_true]
    exact ⟨by decide, Prints.list (BoundedRange.prints hh) _⟩)

theorem Inner.prints {ty : List Char} (ht : '\n' ∉ ty) (x : Inner T) : Prints (x.debug .pretty h ty) (x.layout h ty) := by
  cases x with
  | br r => exact BoundedRange.prints hh r
  | bs s => exact BoundedSet.prints hh s
  | lbr r => exact LowerBoundedRange.prints hh r
  | lbs s =>
    exact Prints.struct (fs := [⟨"ranges", _, s.ranges.layout h⟩, ⟨"lower_bounded_range", _, s.lowerBoundedRange.layout h⟩])
      (by decide) (by
      simp only [List.forall_mem_cons, List.not_mem_nil, false_implies, implies_true, and_true]
      exact ⟨⟨by decide, BoundedSet.prints hh _⟩, by decide, LowerBoundedRange.prints hh _⟩)
  | ubr r => exact UpperBoundedRange.prints hh r
  | ubs s =>
    exact Prints.struct (fs := [⟨"upper_bounded_range", _, s.upperBoundedRange.layout h⟩, ⟨"ranges", _, s.ranges.layout h⟩])
      (by decide) (by
      simp only [List.forall_mem_cons, List.not_mem_nil, false_implies, implies_true, and_true]
      exact ⟨⟨by decide, UpperBoundedRange.prints hh _⟩, by decide, BoundedSet.prints hh _⟩)
  | ur => exact Prints.word (t := "UnboundedRange".toList) (by decide)
  | us s =>
    cases s with
    | full => exact Prints.word (t := "Full".toList) (by decide)
    | piecewise s =>
      exact (Prints.struct (fs := [⟨"upper_bounded_range", _, s.upperBoundedRange.layout h⟩,
        ⟨"ranges", _, s.ranges.layout h⟩, ⟨"lower_bounded_range", _, s.lowerBoundedRange.layout h⟩]) (by decide) (by
        simp only [List.forall_mem_cons, List.not_mem_nil, false_implies, implies_true, and_true]
        exact ⟨⟨by decide, UpperBoundedRange.prints hh _⟩, ⟨by decide, BoundedSet.prints hh _⟩, by decide,
          LowerBoundedRange.prints hh _⟩)).tuple (by decide)
  | er =>
    refine Prints.struct (fs := [⟨"t", _, _⟩]) (by decide) ?_
    simp only [List.forall_mem_cons, List.not_mem_nil, false_implies, implies_true, and_true]
    exact ⟨by decide, Prints.word (by
      simp only [List.mem_append, not_or]; exact ⟨⟨by decide, ht⟩, by decide⟩)⟩

end

end Rangetools
