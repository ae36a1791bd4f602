import Verif.Spec.Client
import Verif.Proofs.LowerChecked

/-!
# Programs that use an iterator: proofs
-/

namespace Rangetools
variable {T O A R : Type}

namespace Client

theorem map_run {σ R' : Type} (call : σ → O → Res (A × σ)) (f : R → R') (c : Client O A R) (s : σ) :
    (c.map f).run call s = (do return f (← c.run call s)) := by
  induction c generalizing s with
  | done r => rfl
  | ask o k ih =>
    simp only [map, run]
    cases call s o with
    | panic m => rfl
    | ok x => exact ih _ _

theorem map_onList {R' : Type} (call : List T → O → A × List T) (f : R → R') (c : Client O A R) (l : List T) :
    (c.map f).onList call l = f (c.onList call l) := by
  induction c generalizing l with
  | done r => rfl
  | ask o k ih => exact ih _ _

theorem map_trace {R' : Type} (call : List T → O → A × List T) (f : R → R') (c : Client O A R) (l : List T) :
    (c.map f).trace call l = c.trace call l := by
  induction c generalizing l with
  | done r => rfl
  | ask o k ih => simp only [map, trace, ih]

/-- If an iterator answers the calls as the list does, the program ends as it does on the list. -/
theorem run_of_runOps {σ : Type} {call : σ → Op → Res (Out T × σ)} (c : Client Op (Out T) R) {s s' : σ} {l : List T}
    (h : runOps call s (c.trace listCall l) = .ok ((listRun l (c.trace listCall l)).1, s')) :
    c.run call s = .ok (c.onList listCall l) := by
  induction c generalizing s l with
  | done r => rfl
  | ask o k ih =>
    simp only [trace, runOps, listRun] at h
    obtain ⟨⟨a, s1⟩, h1, h⟩ := Res.bind_eq_ok.1 h
    obtain ⟨⟨os, s2⟩, h2, h⟩ := Res.bind_eq_ok.1 h
    simp only [Res.pure_eq, Res.ok.injEq, Prod.mk.injEq, List.cons.injEq] at h
    obtain ⟨⟨rfl, rfl⟩, rfl⟩ := h
    simp only [run, onList, h1, Res.bind_ok]
    exact ih _ h2

theorem run_of_runFront {σ : Type} {call : σ → FrontOp → Res (Out T × σ)} (c : Client FrontOp (Out T) R) {s s' : σ}
    {l : List T}
    (h : runFront call s (c.trace listFront l) = .ok ((listRun l ((c.trace listFront l).map FrontOp.toOp)).1, s')) :
    c.run call s = .ok (c.onList listFront l) := by
  induction c generalizing s l with
  | done r => rfl
  | ask o k ih =>
    simp only [trace, runFront, List.map_cons, listRun] at h
    obtain ⟨⟨a, s1⟩, h1, h⟩ := Res.bind_eq_ok.1 h
    obtain ⟨⟨os, s2⟩, h2, h⟩ := Res.bind_eq_ok.1 h
    simp only [Res.pure_eq, Res.ok.injEq, Prod.mk.injEq, List.cons.injEq] at h
    obtain ⟨⟨rfl, rfl⟩, rfl⟩ := h
    simp only [run, onList, h1, Res.bind_ok]
    exact ih _ h2

/-- A program that ends has seen right answers only. -/
theorem run_ok {σ : Type} {call : σ → O → Res (A × σ)} {lc : List T → O → A × List T} {R' : σ → List T → Prop}
    {P : O → Prop} (hcall : ∀ s l o x, R' s l → P o → call s o = .ok x → x.1 = (lc l o).1 ∧ R' x.2 (lc l o).2)
    (c : Client O A R) {s : σ} {l : List T} (h : R' s l) (hP : ∀ o ∈ c.trace lc l, P o) {r : R}
    (e : c.run call s = .ok r) : r = c.onList lc l := by
  induction c generalizing s l with
  | done r => cases e; rfl
  | ask o k ih =>
    obtain ⟨⟨a, s1⟩, h1, e⟩ := Res.bind_eq_ok.1 e
    obtain ⟨h2, h3⟩ := hcall s l o _ h (hP o (by simp [trace])) h1
    simp only at h2 h3
    subst h2
    exact ih _ h3 (fun o ho => hP o (by simp [trace, ho])) e

/-! ### Loops on lists -/

theorem drain_next (l : List T) (fuel : Nat) (h : l.length < fuel) : (drain .next fuel).onList listCall l = some l := by
  induction fuel generalizing l with
  | zero => omega
  | succ n ih =>
    cases l with
    | nil => rfl
    | cons x xs =>
      simp only [drain, onList, listCall, List.head?_cons, List.tail_cons, map_onList]
      rw [ih xs (by simpa using h)]
      rfl

theorem drain_nextBack (l : List T) (fuel : Nat) (h : l.length < fuel) :
    (drain .nextBack fuel).onList listCall l = some l.reverse := by
  induction fuel generalizing l with
  | zero => omega
  | succ n ih =>
    rcases List.eq_nil_or_concat l with rfl | ⟨xs, x, rfl⟩
    · rfl
    · simp only [List.concat_eq_append] at h ⊢
      simp only [drain, onList, listCall, List.getLast?_concat, List.dropLast_concat, map_onList]
      rw [ih xs (by simp at h; omega)]
      simp

/-- Every `k`-th element, after skipping `k - 1`. -/
def strides (m : Nat) (l : List T) : List T :=
  match _h : l.drop m with
  | [] => []
  | x :: xs => x :: strides m xs
termination_by l.length
decreasing_by
  have : (x :: xs).length ≤ l.length := by rw [← _h, List.length_drop]; omega
  simp only [List.length_cons] at this
  omega

theorem strides_nil {m : Nat} {l : List T} (h : l.drop m = []) : strides m l = [] := by
  rw [strides]; split
  · rfl
  · rename_i h'; rw [h] at h'; cases h'

theorem strides_cons {m : Nat} {l xs : List T} {x : T} (h : l.drop m = x :: xs) : strides m l = x :: strides m xs := by
  rw [strides]; split
  · rename_i h'; rw [h] at h'; cases h'
  · rename_i h'; rw [h] at h'; cases h'; rfl

theorem strides_getElem? (m : Nat) (l : List T) (j : Nat) : (strides m l)[j]? = l[m + j * (m + 1)]? := by
  induction j generalizing l with
  | zero =>
    cases h : l.drop m with
    | nil => rw [strides_nil h]; simp [List.drop_eq_nil_iff] at h; simp [h]
    | cons x xs =>
      rw [strides_cons h]
      have := congrArg (·[0]?) h
      simpa using this.symm
  | succ j ih =>
    cases h : l.drop m with
    | nil =>
      rw [strides_nil h]
      simp only [List.drop_eq_nil_iff] at h
      rw [List.getElem?_nil, eq_comm, List.getElem?_eq_none_iff]
      omega
    | cons x xs =>
      rw [strides_cons h, List.getElem?_cons_succ, ih]
      have := congrArg (·[m + j * (m + 1) + 1]?) h
      simp only [List.getElem?_drop, List.getElem?_cons_succ] at this
      rw [← this]
      congr 1
      ring

theorem drain_nth (m : Nat) (l : List T) (fuel : Nat) (h : l.length < fuel) :
    (drain (.nth m) fuel).onList listCall l = some (strides m l) := by
  induction fuel generalizing l with
  | zero => omega
  | succ n ih =>
    cases hd : l.drop m with
    | nil =>
      rw [strides_nil hd]
      have : l[m]? = none := by simpa [List.drop_eq_nil_iff] using hd
      simp only [drain, onList, listCall, this]
    | cons x xs =>
      rw [strides_cons hd]
      have h1 : l[m]? = some x := by
        have := congrArg (·[0]?) hd
        simpa using this
      have h2 : l.drop (m + 1) = xs := by rw [← List.tail_drop, hd]; rfl
      have h3 := congrArg List.length hd
      simp only [List.length_drop, List.length_cons] at h3
      simp only [drain, onList, listCall, h1, h2, map_onList]
      rw [ih xs (by omega)]
      rfl

theorem drain_nthBack (m : Nat) (l : List T) (fuel : Nat) (h : l.length < fuel) :
    (drain (.nthBack m) fuel).onList listCall l = some (strides m l.reverse) := by
  induction fuel generalizing l with
  | zero => omega
  | succ n ih =>
    cases hd : l.reverse.drop m with
    | nil =>
      rw [strides_nil hd]
      have : l.reverse[m]? = none := by simpa [List.drop_eq_nil_iff] using hd
      simp only [drain, onList, listCall, this]
    | cons x xs =>
      rw [strides_cons hd]
      have h1 : l.reverse[m]? = some x := by
        have := congrArg (·[0]?) hd
        simpa using this
      have h2 : l.reverse.drop (m + 1) = xs := by rw [← List.tail_drop, hd]; rfl
      have h3 := congrArg List.length hd
      simp only [List.length_drop, List.length_cons, List.length_reverse] at h3
      simp only [drain, onList, listCall, h1, h2, map_onList]
      rw [ih xs.reverse (by simp; omega), List.reverse_reverse]
      rfl

theorem forTake_next (l : List T) (n : Nat) : (forTake Op.next n).onList listCall l = l.take n := by
  induction n generalizing l with
  | zero => rfl
  | succ n ih =>
    cases l with
    | nil => rfl
    | cons x xs =>
      simp only [forTake, onList, listCall, List.head?_cons, List.tail_cons, map_onList, ih, List.take_succ_cons]

theorem forTake_front (l : List T) (n : Nat) : (forTake FrontOp.next n).onList listFront l = l.take n := by
  induction n generalizing l with
  | zero => rfl
  | succ n ih =>
    cases l with
    | nil => rfl
    | cons x xs =>
      simp only [forTake, onList, listFront, FrontOp.toOp, listCall, List.head?_cons, List.tail_cons, map_onList, ih,
        List.take_succ_cons]

/-- The calls of a loop. -/
theorem drain_trace {lc : List T → O → Out T × List T} (o : O) (fuel : Nat) (l : List T) :
    ∀ o' ∈ (drain o fuel).trace lc l, o' = o := by
  induction fuel generalizing l with
  | zero => intro o' h; cases h
  | succ n ih =>
    intro o' h
    simp only [drain, trace, List.mem_cons] at h
    rcases h with h | h
    · exact h
    · split at h
      · rw [map_trace] at h; exact ih _ _ h
      · cases h

theorem andThen_trace {lc : List T → O → Out T × List T} (o : O) (c : Client O (Out T) (Option (List T))) (l : List T) :
    ∀ o' ∈ (andThen o c).trace lc l, o' = o ∨ o' ∈ c.trace lc (lc l o).2 := by
  intro o' h
  simp only [andThen, trace, List.mem_cons] at h
  rcases h with h | h
  · exact .inl h
  · split at h
    · rw [map_trace] at h; exact .inr h
    · cases h

theorem forTake_trace {lc : List T → O → Out T × List T} (o : O) (n : Nat) (l : List T) :
    ∃ k ≤ n, (forTake o n).trace lc l = List.replicate k o := by
  induction n generalizing l with
  | zero => exact ⟨0, le_rfl, rfl⟩
  | succ n ih =>
    simp only [forTake, trace]
    split
    · rw [map_trace]
      obtain ⟨k, hk, e⟩ := ih (lc l o).2
      exact ⟨k + 1, by omega, by rw [e]; rfl⟩
    · exact ⟨1, by omega, rfl⟩

end Client
end Rangetools
