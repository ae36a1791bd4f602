import Verif.Props.Flags

/-!
# C127: Debug output in hexadecimal
-/

namespace Rangetools

/-- The value of a hexadecimal digit, of either case. -/
def hexVal (c : Char) : Nat := "0123456789abcdef".toList.idxOf c.toLower

/-- The hexadecimal digits of either case. -/
def IsHex (c : Char) : Prop := c ∈ "0123456789abcdefABCDEF".toList

instance (c : Char) : Decidable (IsHex c) := inferInstanceAs (Decidable (_ ∈ _))

/-- The number that hexadecimal digits stand for. -/
def hexValue (l : List Char) : Nat := l.foldl (fun n c => 16 * n + hexVal c) 0

namespace Flags

theorem hexVal_digit : ∀ (up : Bool) (d : Fin 16),
    hexVal (if up then (Nat.digitChar d).toUpper else Nat.digitChar d) = d ∧
      IsHex (if up then (Nat.digitChar d).toUpper else Nat.digitChar d) := by decide

theorem hexDigits_eq (up : Bool) (n : Nat) : hexDigits up n =
    (if n < 16 then [] else hexDigits up (n / 16)) ++
      [if up then (Nat.digitChar (n % 16)).toUpper else Nat.digitChar (n % 16)] := by
  unfold hexDigits
  rw [Nat.toDigits_eq_if (by decide)]
  by_cases h : n < 16
  · simp [h, Nat.mod_eq_of_lt h]
  · simp [h]

theorem hexValue_append (l : List Char) (c : Char) : hexValue (l ++ [c]) = 16 * hexValue l + hexVal c := by
  simp [hexValue]

theorem hexDigits_value (up : Bool) (n : Nat) : hexValue (hexDigits up n) = n := by
  induction n using Nat.strong_induction_on with
  | _ n ih =>
    have hd := (hexVal_digit up ⟨n % 16, Nat.mod_lt _ (by decide)⟩).1
    rw [hexDigits_eq, hexValue_append, hd]
    by_cases h : n < 16
    · simp only [h, if_true, hexValue, List.foldl_nil]
      omega
    · rw [if_neg h, ih _ (by omega)]
      simp only
      omega

theorem hexDigits_isHex (up : Bool) (n : Nat) : ∀ c ∈ hexDigits up n, IsHex c := by
  induction n using Nat.strong_induction_on with
  | _ n ih =>
    intro c hc
    rw [hexDigits_eq, List.mem_append] at hc
    rcases hc with hc | hc
    · by_cases h : n < 16
      · simp [h] at hc
      · rw [if_neg h] at hc
        exact ih _ (by omega) c hc
    · rw [List.mem_singleton] at hc
      rw [hc]
      exact (hexVal_digit up ⟨n % 16, Nat.mod_lt _ (by decide)⟩).2

theorem hexDigits_ne_nil (up : Bool) (n : Nat) : hexDigits up n ≠ [] := by
  rw [hexDigits_eq]; simp

/-- There are no leading zeros. -/
theorem hexDigits_head (up : Bool) (n : Nat) (hc : (hexDigits up n).head? = some '0') : n = 0 := by
  have key : ∀ (up : Bool) (d : Fin 16), (if up then (Nat.digitChar d).toUpper else Nat.digitChar d) = '0' → d = 0 := by decide
  induction n using Nat.strong_induction_on with
  | _ n ih =>
    rw [hexDigits_eq] at hc
    by_cases h : n < 16
    · simp only [h, if_true, List.nil_append, List.head?_cons, Option.some.injEq] at hc
      have := congrArg Fin.val (key up ⟨n % 16, Nat.mod_lt _ (by decide)⟩ hc)
      simp only [Fin.val_zero] at this
      omega
    · rw [if_neg h] at hc
      cases hd : hexDigits up (n / 16) with
      | nil => exact absurd hd (hexDigits_ne_nil up _)
      | cons c r =>
        rw [hd] at hc
        have := ih (n / 16) (by omega) (by rw [hd]; exact hc)
        omega

/-- Hexadecimal digits with zeros before them. -/
def hexPadded (up : Bool) (k n : Nat) : List Char := List.replicate k '0' ++ hexDigits up n

theorem hexPadded_isHex {up : Bool} {k n : Nat} {c : Char} (h : c ∈ hexPadded up k n) : IsHex c := by
  rcases List.mem_append.mp h with h | h
  · rw [List.eq_of_mem_replicate h]; decide
  · exact hexDigits_isHex up n c h

theorem hexPadded_value (up : Bool) (k n : Nat) : hexValue (hexPadded up k n) = n := by
  have : ∀ k, (List.replicate k '0').foldl (fun n c => 16 * n + hexVal c) 0 = 0 := by
    intro k
    induction k with
    | zero => rfl
    | succ k ih =>
      rw [List.replicate_succ, List.foldl_cons]
      exact ih
  rw [hexPadded, hexValue, List.foldl_append, this]
  exact hexDigits_value up n

/-- The number of zeros. -/
def hexZeros (f : Flags) (up alt : Bool) (n : Nat) : Nat :=
  if f.zero then f.width - ((f.hexHead alt).length + (hexDigits up n).length) else 0

theorem hexNumber_eq (f : Flags) (up alt : Bool) (n : Nat) :
    f.hexNumber up alt n = f.hexHead alt ++ hexPadded up (f.hexZeros up alt n) n := by
  unfold hexNumber hexPadded hexZeros
  cases f.zero <;> simp

/-- The end of the text, or something that is not a hexadecimal digit. -/
def NoHex (l : List Char) : Prop := ∀ c m, l = c :: m → ¬ IsHex c

theorem hexRuns_eq {l m : List Char} (hl : NoHex l) (hm : NoHex m) :
    ∀ a b : List Char, (∀ c ∈ a, IsHex c) → (∀ c ∈ b, IsHex c) → a ++ l = b ++ m → a = b ∧ l = m := by
  intro a
  induction a with
  | nil =>
    rintro (_ | ⟨c, b⟩) _ hb e
    · exact ⟨rfl, e⟩
    · exact absurd (hb c (by simp)) (hl c _ e)
  | cons c a ih =>
    rintro (_ | ⟨d, b⟩) ha hb e
    · exact absurd (ha c (by simp)) (hm c _ e.symm)
    · simp only [List.cons_append, List.cons.injEq] at e
      obtain ⟨rfl, rfl⟩ := ih b (fun x hx => ha x (List.mem_cons_of_mem _ hx)) (fun x hx => hb x (List.mem_cons_of_mem _ hx)) e.2
      exact ⟨by rw [e.1], rfl⟩

theorem stop_noHex {l : List Char} (h : Stop l) : NoHex l := by
  rintro c m rfl
  rcases h with h | ⟨d, k, h, hd⟩
  · cases h
  · injection h with h1 h2
    subst h1
    simp only [List.mem_cons, List.not_mem_nil, or_false] at hd
    rcases hd with rfl | rfl | rfl | rfl <;> decide

theorem fill_noHex {c : Char} (h : ¬ IsHex c) {l : List Char} (hl : NoHex l) (k : Nat) : NoHex (List.replicate k c ++ l) := by
  cases k with
  | zero => exact hl
  | succ k =>
    rintro d m e
    simp only [List.replicate_succ, List.cons_append, List.cons.injEq] at e
    rwa [← e.1]

/-- A number begins with a digit or `+`. -/
theorem hexNumber_head (f : Flags) (up alt : Bool) (n : Nat) :
    ∃ c r, f.hexNumber up alt n = c :: r ∧ (IsHex c ∨ c = '+' ∧ f.plus = true) := by
  rw [hexNumber_eq, hexHead]
  cases hp : f.plus with
  | true => exact ⟨'+', _, rfl, .inr ⟨rfl, rfl⟩⟩
  | false =>
    cases alt with
    | true => exact ⟨'0', _, rfl, .inl (by decide)⟩
    | false =>
      simp only [Bool.false_eq_true, if_false, List.append_nil, List.nil_append]
      cases h : hexPadded up (f.hexZeros up false n) n with
      | nil =>
        rw [hexPadded, List.append_eq_nil_iff] at h
        exact absurd h.2 (hexDigits_ne_nil up n)
      | cons c r =>
        exact ⟨c, r, rfl, .inl (hexPadded_isHex (up := up) (k := f.hexZeros up false n) (n := n) (by rw [h]; simp))⟩

end Flags

/-- C127. The integers of any number of bits print readably with `x` or `X`, with or without `#`, and with any width, alignment,
`+` and `0`, and any fill that is not a hexadecimal digit or a `+` that numbers begin with. -/
theorem C127_hex_readable (f : Flags) (up alt : Bool) (w : Nat) (hd : ¬ IsHex f.fill) (hp : f.fill = '+' → f.plus = false) :
    Readable (f.hex up alt (w := w)) := by
  intro x y l m hl hm e
  have hl := Flags.stop_noHex hl
  have hm := Flags.stop_noHex hm
  have head : ∀ n : Nat, ∃ c r, f.hexNumber up alt n = c :: r ∧ c ≠ f.fill := by
    intro n
    obtain ⟨c, r, h, hc⟩ := f.hexNumber_head up alt n
    refine ⟨c, r, h, ?_⟩
    rintro rfl
    rcases hc with hc | ⟨hc, hc'⟩
    · exact hd hc
    · rw [hp hc] at hc'; cases hc'
  obtain ⟨c, r, hx, hc⟩ := head x.toNat
  obtain ⟨c', r', hy, hc'⟩ := head y.toNat
  have e' := e
  simp only [Flags.hex, Flags.pad, List.append_assoc] at e'
  have hj := Flags.replicate_inj hc hc' (p := r ++ (List.replicate _ f.fill ++ l)) (q := r' ++ (List.replicate _ f.fill ++ m))
    _ _ (by rw [← List.cons_append, ← List.cons_append, ← hx, ← hy]; exact e')
  rw [hj, List.append_cancel_left_eq, Flags.hexNumber_eq, Flags.hexNumber_eq, List.append_assoc, List.append_assoc,
    List.append_cancel_left_eq] at e'
  obtain ⟨h, -⟩ := Flags.hexRuns_eq (Flags.fill_noHex hd hl _) (Flags.fill_noHex hd hm _) _ _ (fun _ => Flags.hexPadded_isHex)
    (fun _ => Flags.hexPadded_isHex) e'
  have hv := congrArg hexValue h
  rw [Flags.hexPadded_value, Flags.hexPadded_value] at hv
  obtain rfl : x = y := BitVec.eq_of_toNat_eq hv
  exact ⟨rfl, List.append_cancel_left e⟩

/-- C127. The text is fill, `+` if asked for, `0x` with `#`, zeros, the digits of the number in the case asked for, and fill:
zeros only with `0`, and then no fill; the fill where the alignment says. -/
theorem C127_shape (f : Flags) (up alt : Bool) {w : Nat} (x : BitVec w) : ∃ p z q ds,
    f.hex up alt x = List.replicate p f.fill ++ ((if f.plus then ['+'] else []) ++ (if alt then "0x".toList else []) ++
        List.replicate z '0' ++ ds) ++ List.replicate q f.fill ∧
      hexValue ds = x.toNat ∧ (∀ c ∈ ds, c ∈ (if up then "0123456789ABCDEF" else "0123456789abcdef").toList) ∧
      (ds.head? = some '0' → x.toNat = 0) ∧ (f.zero = false → z = 0) ∧ (f.zero = true → p = 0 ∧ q = 0) ∧ f.Aligned p q ∧
      p + q + z = f.width - ((if f.plus then 1 else 0) + (if alt then 2 else 0) + ds.length) := by
  obtain ⟨p, q, h, hpq, ha⟩ := f.pad_shape (f.hexNumber up alt x.toNat)
  have hl : (f.hexNumber up alt x.toNat).length =
      (f.hexHead alt).length + f.hexZeros up alt x.toNat + (Flags.hexDigits up x.toNat).length := by
    rw [Flags.hexNumber_eq, List.length_append, Flags.hexPadded, List.length_append, List.length_replicate]
    omega
  have hh : (f.hexHead alt).length = (if f.plus then 1 else 0) + (if alt then 2 else 0) := by
    unfold Flags.hexHead; cases f.plus <;> cases alt <;> rfl
  refine ⟨p, f.hexZeros up alt x.toNat, q, Flags.hexDigits up x.toNat, ?_, Flags.hexDigits_value _ _, ?_, ?_, ?_, ?_, ha, ?_⟩
  · rw [Flags.hex, h]
    congr 2
    rw [Flags.hexNumber_eq, Flags.hexPadded, ← List.append_assoc]
    rfl
  · have key : ∀ (up : Bool) (d : Fin 16), (if up then (Nat.digitChar d).toUpper else Nat.digitChar d) ∈
        (if up then "0123456789ABCDEF" else "0123456789abcdef").toList := by decide
    generalize x.toNat = n
    induction n using Nat.strong_induction_on with
    | _ n ih =>
      intro c hc
      rw [Flags.hexDigits_eq, List.mem_append] at hc
      rcases hc with hc | hc
      · by_cases h : n < 16
        · simp [h] at hc
        · rw [if_neg h] at hc
          exact ih _ (by omega) c hc
      · rw [List.mem_singleton] at hc
        rw [hc]
        exact key up ⟨n % 16, Nat.mod_lt _ (by decide)⟩
  · exact Flags.hexDigits_head up _
  · intro hz
    simp [Flags.hexZeros, hz]
  · intro hz
    simp only [Flags.hexZeros, hz, if_true] at hl
    omega
  · rw [← hh]
    unfold Flags.hexZeros at hl ⊢
    cases hz : f.zero <;> simp only [hz, if_true, Bool.false_eq_true, if_false] at hl ⊢ <;> omega

/-- C127. With such flags the texts printed in hexadecimal for ranges and sets of integers tell the values apart, with `#` as
without. -/
theorem C127_debug_injective (f : Flags) (up : Bool) (w : Nat) (hd : ¬ IsHex f.fill) (hp : f.fill = '+' → f.plus = false)
    (ty : List Char) (a b : Inner (BitVec w)) :
    (a.debug .plain (f.hex up false) ty = b.debug .plain (f.hex up false) ty ↔ a = b) ∧
      (a.debug .pretty (f.hex up true) ty = b.debug .pretty (f.hex up true) ty ↔ a = b) := by
  have hr := C127_hex_readable f up true w hd hp
  exact ⟨C87_debug_injective (C127_hex_readable f up false w hd hp) ty a b,
    (C106_pretty_plain hr hr ty a b).trans (C87_debug_injective hr ty a b)⟩

-- `{:x?}` of `-1i8`, `{:#06X?}` of `171u8`, `{:*<+5x?}` of `10u8`
example : String.ofList (Flags.hex {} false false (BitVec.ofInt 8 (-1))) = "ff" ∧
    String.ofList (Flags.hex { width := 6, zero := true } true true 171#8) = "0x00AB" ∧
    String.ofList (Flags.hex { width := 5, fill := '*', align := .left, plus := true } false false 10#8) = "+a***" := by decide

-- the hypotheses hold of `*` and of a space
example : ¬ IsHex '*' ∧ ¬ IsHex ' ' ∧ (('*' : Char) = '+' → (true : Bool) = false) := by decide

end Rangetools
