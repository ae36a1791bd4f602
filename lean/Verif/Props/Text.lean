import Verif.Model.Text
import Verif.Props.Hex

/-!
# C128: Debug output of ranges of characters and strings
-/

namespace Rangetools

variable {p : Char → Bool} {q : Char}

/-- The character that a backslash and `d` stand for. -/
def unescape (d : Char) : Char :=
  if d = '0' then '\x00' else if d = 't' then '\t' else if d = 'r' then '\r' else if d = 'n' then '\n' else d

theorem toDigits_eq_hexDigits (n : Nat) : Nat.toDigits 16 n = Flags.hexDigits false n := by
  simp [Flags.hexDigits]

/-- The three forms of what is written for a character. -/
theorem escapeDebug_forms (hq : q = '\'' ∨ q = '"') (c : Char) :
    (escapeDebug q p c = [c] ∧ c ≠ '\\' ∧ c ≠ q ∧ c ≠ '\n') ∨
    (∃ d, escapeDebug q p c = ['\\', d] ∧ unescape d = c ∧ d ≠ 'u' ∧ d ≠ '\n') ∨
      escapeDebug q p c = '\\' :: 'u' :: '{' :: (Flags.hexDigits false c.toNat ++ ['}']) := by
  unfold escapeDebug
  by_cases h0 : c = '\x00'
  · subst h0; exact .inr (.inl ⟨'0', by simp, by decide⟩)
  by_cases h1 : c = '\t'
  · subst h1; exact .inr (.inl ⟨'t', by simp, by decide⟩)
  by_cases h2 : c = '\r'
  · subst h2; exact .inr (.inl ⟨'r', by simp, by decide⟩)
  by_cases h3 : c = '\n'
  · subst h3; exact .inr (.inl ⟨'n', by simp, by decide⟩)
  by_cases h4 : c = '\\'
  · subst h4; exact .inr (.inl ⟨'\\', by simp, by decide⟩)
  by_cases h5 : c = q
  · subst h5
    refine .inr (.inl ⟨c, by simp [h0, h1, h2, h3, h4], ?_⟩)
    rcases hq with rfl | rfl <;> decide
  by_cases h6 : p c = true
  · exact .inl ⟨by simp [h0, h1, h2, h3, h4, h5, h6], h4, h5, h3⟩
  · exact .inr (.inr (by simp [h0, h1, h2, h3, h4, h5, h6, toDigits_eq_hexDigits]))

theorem hexDigits_append_inj {x y : Nat} {l m : List Char}
    (e : Flags.hexDigits false x ++ '}' :: l = Flags.hexDigits false y ++ '}' :: m) : x = y ∧ l = m := by
  have no : ∀ l : List Char, Flags.NoHex ('}' :: l) := by
    rintro l c m h
    injection h with h _
    rw [← h]; decide
  obtain ⟨h1, h2⟩ := Flags.hexRuns_eq (no l) (no m) _ _ (Flags.hexDigits_isHex _ _) (Flags.hexDigits_isHex _ _) e
  have := congrArg hexValue h1
  rw [Flags.hexDigits_value, Flags.hexDigits_value] at this
  injection h2 with _ h2
  exact ⟨this, h2⟩

/-- What is written for a character can be told from anything that follows. -/
theorem escapeDebug_inj (hq : q = '\'' ∨ q = '"') {x y : Char} {l m : List Char}
    (e : escapeDebug q p x ++ l = escapeDebug q p y ++ m) : x = y ∧ l = m := by
  rcases escapeDebug_forms (p := p) hq x with ⟨hx, bx, -, -⟩ | ⟨d, hx, ux, vx, -⟩ | hx <;>
    rcases escapeDebug_forms (p := p) hq y with ⟨hy, by', -, -⟩ | ⟨d', hy, uy, vy, -⟩ | hy <;>
    rw [hx, hy] at e <;> simp only [List.cons_append, List.nil_append, List.cons.injEq, true_and] at e
  · exact e
  · exact absurd e.1 bx
  · exact absurd e.1 bx
  · exact absurd e.1.symm by'
  · obtain ⟨rfl, e⟩ := e
    exact ⟨ux.symm.trans uy, e⟩
  · exact absurd e.1 vx
  · exact absurd e.1.symm by'
  · exact absurd e.1.symm vy
  · rw [List.append_assoc, List.append_assoc] at e
    obtain ⟨h1, h2⟩ := hexDigits_append_inj e
    exact ⟨Char.toNat_inj.mp h1, h2⟩

/-- It does not begin with the quote that ends the text. -/
theorem escapeDebug_ne (hq : q = '\'' ∨ q = '"') (x : Char) (l m : List Char) : escapeDebug q p x ++ l ≠ q :: m := by
  have hb : '\\' ≠ q := by rcases hq with rfl | rfl <;> decide
  intro e
  rcases escapeDebug_forms (p := p) hq x with ⟨hx, -, bx, -⟩ | ⟨d, hx, -⟩ | hx <;>
    rw [hx] at e <;> simp only [List.cons_append, List.nil_append, List.cons.injEq] at e
  · exact bx e.1
  · exact hb e.1
  · exact hb e.1

/-- C128. Characters print readably, whichever of them count as printable. -/
theorem C128_char_readable (p : Char → Bool) : Readable (debugChar p) := by
  intro x y l m _ _ e
  simp only [debugChar, List.cons_append, List.append_assoc, List.cons.injEq, true_and, List.nil_append] at e
  obtain ⟨h1, h2⟩ := escapeDebug_inj (.inl rfl) e
  injection h2 with _ h2
  exact ⟨h1, h2⟩

/-- C128. So do strings. -/
theorem C128_str_readable (p : Char → Bool) : Readable (debugStr p) := by
  intro x y l m _ _ e
  simp only [debugStr, List.cons_append, List.append_assoc, List.cons.injEq, true_and, List.nil_append] at e
  induction x generalizing y with
  | nil =>
    cases y with
    | nil => simpa using e
    | cons c y =>
      rw [List.flatMap_cons, List.append_assoc] at e
      exact absurd e.symm (escapeDebug_ne (.inr rfl) _ _ _)
  | cons b x ih =>
    cases y with
    | nil =>
      rw [List.flatMap_cons, List.append_assoc] at e
      exact absurd e (escapeDebug_ne (.inr rfl) _ _ _)
    | cons c y =>
      rw [List.flatMap_cons, List.flatMap_cons, List.append_assoc, List.append_assoc] at e
      obtain ⟨rfl, e'⟩ := escapeDebug_inj (.inr rfl) e
      obtain ⟨rfl, h⟩ := ih y e'
      exact ⟨rfl, h⟩

/-- C128. The texts printed for ranges and sets of characters or of strings tell the values apart, with `#` as without. -/
theorem C128_debug_injective (p : Char → Bool) (ty : List Char) :
    (∀ a b : Inner Char, (a.debug .plain (debugChar p) ty = b.debug .plain (debugChar p) ty ↔ a = b) ∧
      (a.debug .pretty (debugChar p) ty = b.debug .pretty (debugChar p) ty ↔ a = b)) ∧
    ∀ a b : Inner (List Char), (a.debug .plain (debugStr p) ty = b.debug .plain (debugStr p) ty ↔ a = b) ∧
      (a.debug .pretty (debugStr p) ty = b.debug .pretty (debugStr p) ty ↔ a = b) := by
  have hc := C128_char_readable p
  have hs := C128_str_readable p
  exact ⟨fun a b => ⟨C87_debug_injective hc ty a b, (C106_pretty_plain hc hc ty a b).trans (C87_debug_injective hc ty a b)⟩,
    fun a b => ⟨C87_debug_injective hs ty a b, (C106_pretty_plain hs hs ty a b).trans (C87_debug_injective hs ty a b)⟩⟩

theorem newline_escapeDebug (hq : q = '\'' ∨ q = '"') (c : Char) : '\n' ∉ escapeDebug q p c := by
  intro h
  rcases escapeDebug_forms (p := p) hq c with ⟨hx, -, -, bx⟩ | ⟨d, hx, -, -, bx⟩ | hx <;> rw [hx] at h
  · rw [List.mem_singleton] at h; exact bx h.symm
  · simp only [List.mem_cons, List.not_mem_nil, or_false] at h
    rcases h with h | h
    · exact absurd h (by decide)
    · exact bx h.symm
  · simp only [List.mem_cons, List.mem_append, List.not_mem_nil, or_false] at h
    rcases h with h | h | h | h | h
    · exact absurd h (by decide)
    · exact absurd h (by decide)
    · exact absurd h (by decide)
    · exact absurd (Flags.hexDigits_isHex _ _ _ h) (by decide)
    · exact absurd h (by decide)

/-- C128. The text of a character or a string is on one line, also if a line break is among the characters. -/
theorem C128_one_line (p : Char → Bool) : (∀ c, '\n' ∉ debugChar p c) ∧ ∀ s, '\n' ∉ debugStr p s := by
  constructor
  · intro c h
    simp only [debugChar, List.mem_cons, List.mem_append, List.not_mem_nil, or_false] at h
    rcases h with h | h | h
    · exact absurd h (by decide)
    · exact newline_escapeDebug (.inl rfl) c h
    · exact absurd h (by decide)
  · intro s h
    simp only [debugStr, List.mem_cons, List.mem_append, List.not_mem_nil, or_false, List.mem_flatMap] at h
    rcases h with h | ⟨c, -, h⟩ | h
    · exact absurd h (by decide)
    · exact newline_escapeDebug (.inr rfl) c h
    · exact absurd h (by decide)

/-- C128. Characters that count as printable stand for themselves, but for the backslash and the quotes around the text. -/
theorem C128_printable (p : Char → Bool) (s : List Char)
    (h : ∀ c ∈ s, p c = true ∧ c ∉ ['\x00', '\t', '\r', '\n', '\\', '"']) : debugStr p s = '"' :: (s ++ ['"']) := by
  have : ∀ c ∈ s, escapeDebug '"' p c = [c] := by
    intro c hc
    obtain ⟨hp, hc⟩ := h c hc
    simp only [List.mem_cons, List.not_mem_nil, or_false, not_or] at hc
    unfold escapeDebug
    simp [hc, hp]
  rw [debugStr]
  congr 2
  clear h
  induction s with
  | nil => rfl
  | cons c s ih =>
    rw [List.flatMap_cons, this c (by simp), ih fun d hd => this d (List.mem_cons_of_mem _ hd)]
    rfl

/-- C128. In the same way for a single character. -/
theorem C128_printable_char (p : Char → Bool) (c : Char) (hp : p c = true)
    (hc : c ∉ ['\x00', '\t', '\r', '\n', '\\', '\'']) : debugChar p c = ['\'', c, '\''] := by
  simp only [List.mem_cons, List.not_mem_nil, or_false, not_or] at hc
  unfold debugChar escapeDebug
  simp [hc, hp]

/-- C128. The short forms, whatever counts as printable. -/
theorem C128_short (p : Char → Bool) : ['\x00', '\t', '\r', '\n', '\\', '\''].map (fun c => String.ofList (debugChar p c)) =
    ["'\\0'", "'\\t'", "'\\r'", "'\\n'", "'\\\\'", "'\\''"] ∧
      String.ofList (debugStr p ['\x00', '\t', '\r', '\n', '\\', '"']) = "\"\\0\\t\\r\\n\\\\\\\"\"" := by
  constructor
  · simp [debugChar, escapeDebug]
  · simp [debugStr, escapeDebug]

/-- C128. A character that has no short form and does not count as printable is written as its number in hexadecimal. -/
theorem C128_unicode (p : Char → Bool) (c : Char) (hp : p c = false)
    (hc : c ∉ ['\x00', '\t', '\r', '\n', '\\', '\'']) :
    ∃ ds, debugChar p c = "'\\u{".toList ++ ds ++ "}'".toList ∧ hexValue ds = c.toNat ∧ ds.head? ≠ some '0' := by
  simp only [List.mem_cons, List.not_mem_nil, or_false, not_or] at hc
  refine ⟨Flags.hexDigits false c.toNat, ?_, Flags.hexDigits_value _ _, ?_⟩
  · unfold debugChar escapeDebug
    simp [hc, hp, toDigits_eq_hexDigits]
  · intro h
    have h0 := Flags.hexDigits_head _ _ h
    exact hc.1 (Char.toNat_inj.mp h0)

/-- C128. Pairs print readably if both parts do, so ranges of pairs (without `#`) are told apart as well. -/
theorem C128_pair {α β : Type} {h : α → List Char} {k : β → List Char} (hh : Readable h) (hk : Readable k) :
    Readable (debugPair h k) := by
  rintro ⟨a, b⟩ ⟨a', b'⟩ l m _ _ e
  simp only [debugPair, List.cons_append, List.append_assoc, List.nil_append, List.cons.injEq, true_and] at e
  obtain ⟨h1, e1⟩ := hh _ _ _ _ (stop_cons (by decide)) (stop_cons (by decide)) e
  simp only [List.cons.injEq, true_and] at e1
  obtain ⟨h2, e2⟩ := hk _ _ _ _ (stop_cons (by decide)) (stop_cons (by decide)) e1
  injection e2 with _ e2
  exact ⟨by rw [h1, h2], e2⟩

example : String.ofList ((Inner.lbr ⟨⟨.included (3, 'a')⟩⟩ : Inner (Int × Char)).debug .plain
    (debugPair debugInt (debugChar fun _ => true)) []) = "LowerBoundedRange { start: LowerBound(Included((3, 'a'))) }" := by decide

theorem body_head {α : Type} {g : α → List Char} (hg : Readable g) {x y : α} {vs ws : List (List Char)}
    (e : body (g x :: vs) = body (g y :: ws)) : x = y ∧ body vs = body ws := by
  have ec : ∀ a vs, body (g a :: vs) = g a ++ (',' :: '\n' :: body vs) := by
    intro a vs; simp [body]
  rw [ec, ec] at e
  obtain ⟨h1, e1⟩ := hg _ _ _ _ (stop_cons (by decide)) (stop_cons (by decide)) e
  simp only [List.cons.injEq, true_and] at e1
  exact ⟨h1, e1⟩

/-- C128. The same with `#`, where each part is on lines of its own. -/
theorem C128_pair_pretty {α β : Type} {h : α → List Char} {k : β → List Char} (hh : Readable h) (hk : Readable k) :
    Readable (prettyPair h k) := by
  rintro ⟨a, b⟩ ⟨a', b'⟩ l m _ _ e
  simp only [prettyPair, List.append_assoc, List.append_cancel_left_eq] at e
  obtain ⟨f, el⟩ := prettyLines_cancel (vs := [h a, k b]) (vs' := [h a', k b']) (c := ')') (c' := ')') (l := l) (m := m)
    (by decide) (by decide) (by simpa using e)
  obtain ⟨rfl, f'⟩ := body_head hh f
  obtain ⟨rfl, -⟩ := body_head hk f'
  exact ⟨rfl, (List.cons.inj el).2⟩

/-- C128. Optional elements print readably, with and without `#`, if the elements do. -/
theorem C128_option {α : Type} {h : α → List Char} (hh : Readable h) :
    Readable (debugOption .plain h) ∧ Readable (debugOption .pretty h) := by
  constructor
  · rintro (_ | a) (_ | b) l m _ _ e
    · exact ⟨rfl, List.append_cancel_left e⟩
    · simp [debugOption, Fmt.plain, debugTuple] at e
    · simp [debugOption, Fmt.plain, debugTuple] at e
    · simp only [debugOption, Fmt.plain, debugTuple, List.append_assoc, List.append_cancel_left_eq] at e
      obtain ⟨rfl, e'⟩ := hh _ _ _ _ (stop_cons (by decide)) (stop_cons (by decide)) e
      exact ⟨rfl, List.append_cancel_left (as := ")".toList) e'⟩
  · rintro (_ | a) (_ | b) l m _ _ e
    · exact ⟨rfl, List.append_cancel_left e⟩
    · simp [debugOption, Fmt.pretty, prettyTuple] at e
    · simp [debugOption, Fmt.pretty, prettyTuple] at e
    · obtain ⟨f, rfl⟩ := prettyTuple_cancel e
      exact ⟨by rw [hh.inj f], rfl⟩

/-- C128. So do vectors of elements; without `#` the text of an element must not be empty or begin with a closing bracket. -/
theorem C128_vec {α : Type} {h : α → List Char} (hh : Readable h) :
    ((∀ a, h a ≠ [] ∧ (h a).head? ≠ some ']') → Readable fun l : List α => debugList (l.map h)) ∧
      Readable fun l : List α => prettyList (l.map h) :=
  ⟨fun hs => debugList_readable hh (fun a => (hs a).2) fun a => (hs a).1, prettyList_readable hh⟩

example : ∀ a : Char, debugChar (fun _ => true) a ≠ [] ∧ (debugChar (fun _ => true) a).head? ≠ some ']' :=
  fun a => ⟨by simp [debugChar], by simp [debugChar]⟩

/-- Without the condition on brackets, different vectors could print alike. -/
example : Readable (fun _ : Unit => ([] : List Char)) ∧
    debugList (([] : List Unit).map fun _ => []) = debugList ([()].map fun _ => []) :=
  ⟨fun _ _ _ _ _ _ e => ⟨rfl, e⟩, by decide⟩

/-- The text of `(3, Some(4))` with `#`. -/
example : String.ofList (prettyPair debugInt (debugOption .pretty debugInt) (3, some 4)) = "(\n    3,\n    Some(\n        4,\n    ),\n)" := by
  decide

-- quotes, a line break and a character that is not printable
example : String.ofList (debugChar (fun c => c.toNat < 127) '\'') = "'\\''" ∧
    String.ofList (debugChar (fun c => c.toNat < 127) '"') = "'\"'" ∧
    String.ofList (debugStr (fun c => c.toNat < 127) "it's\n\"é\"".toList) = "\"it's\\n\\\"\\u{e9}\\\"\"" := by decide

-- the hypotheses of the theorems above
example : (∀ c ∈ "it's".toList, (fun c : Char => decide (c.toNat < 127)) c = true ∧ c ∉ ['\x00', '\t', '\r', '\n', '\\', '"']) ∧
    (fun c : Char => decide (c.toNat < 127)) '"' = true ∧ '"' ∉ ['\x00', '\t', '\r', '\n', '\\', '\''] := by decide

example : (fun c : Char => decide (c.toNat < 127)) 'é' = false ∧ 'é' ∉ ['\x00', '\t', '\r', '\n', '\\', '\''] := by decide

end Rangetools
