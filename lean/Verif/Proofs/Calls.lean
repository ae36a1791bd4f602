import Verif.Spec.Calls
import Verif.Spec.Climb
import Verif.Props.Climb

/-!
# Lemmas on programs that call `Step`
-/

namespace Rangetools
variable {T α β σ : Type} {A : Answers T}

/-- The program can make the calls `cs`, get answers allowed by `A`, and return `a`. -/
inductive Calls.Path (A : Answers T) : Calls T α → List (StepCall T) → α → Prop
  | done (a : α) : Path A (.done a) [] a
  | between {a b r k cs x} : A.between a b r → Path A (k r) cs x → Path A (.between a b k) (.between a b :: cs) x
  | forward {a n r k cs x} : A.forward a n r → Path A (k r) cs x → Path A (.forward a n k) (.forward a n :: cs) x
  | backward {a n r k cs x} : A.backward a n r → Path A (k r) cs x → Path A (.backward a n k) (.backward a n :: cs) x
  | greater {a b r k cs x} : A.greater a b r → Path A (k r) cs x → Path A (.greater a b k) (.greater a b :: cs) x

theorem asksIn_append (a b : List (StepCall T)) : asksIn (a ++ b) = asksIn a + asksIn b := List.countP_append

theorem stepsIn_append (a b : List (StepCall T)) : stepsIn (a ++ b) = stepsIn a + stepsIn b := List.countP_append

theorem comparesIn_append (a b : List (StepCall T)) : comparesIn (a ++ b) = comparesIn a + comparesIn b := List.countP_append

@[simp] theorem asksIn_nil : asksIn ([] : List (StepCall T)) = 0 := rfl
@[simp] theorem stepsIn_nil : stepsIn ([] : List (StepCall T)) = 0 := rfl
@[simp] theorem comparesIn_nil : comparesIn ([] : List (StepCall T)) = 0 := rfl

@[simp] theorem asksIn_greater (a b : T) (cs : List (StepCall T)) : asksIn (.greater a b :: cs) = asksIn cs := by
  simp [asksIn, StepCall.asks]
@[simp] theorem stepsIn_greater (a b : T) (cs : List (StepCall T)) : stepsIn (.greater a b :: cs) = stepsIn cs := by
  simp [stepsIn, StepCall.asks, StepCall.compares]
@[simp] theorem comparesIn_greater (a b : T) (cs : List (StepCall T)) : comparesIn (.greater a b :: cs) = comparesIn cs + 1 :=
  List.countP_cons_of_pos rfl
@[simp] theorem comparesIn_between (a b : T) (cs : List (StepCall T)) : comparesIn (.between a b :: cs) = comparesIn cs := by
  simp [comparesIn, StepCall.compares]
@[simp] theorem comparesIn_forward (a : T) (n : Nat) (cs : List (StepCall T)) :
    comparesIn (.forward a n :: cs) = comparesIn cs := by
  simp [comparesIn, StepCall.compares]
@[simp] theorem comparesIn_backward (a : T) (n : Nat) (cs : List (StepCall T)) :
    comparesIn (.backward a n :: cs) = comparesIn cs := by
  simp [comparesIn, StepCall.compares]

@[simp] theorem asksIn_between (a b : T) (cs : List (StepCall T)) : asksIn (.between a b :: cs) = asksIn cs + 1 :=
  List.countP_cons_of_pos rfl
@[simp] theorem stepsIn_between (a b : T) (cs : List (StepCall T)) : stepsIn (.between a b :: cs) = stepsIn cs := by
  simp [stepsIn, StepCall.asks, StepCall.compares]
@[simp] theorem asksIn_forward (a : T) (n : Nat) (cs : List (StepCall T)) : asksIn (.forward a n :: cs) = asksIn cs := by
  simp [asksIn, StepCall.asks]
@[simp] theorem stepsIn_forward (a : T) (n : Nat) (cs : List (StepCall T)) : stepsIn (.forward a n :: cs) = stepsIn cs + 1 := by
  simp [stepsIn, StepCall.asks, StepCall.compares]
@[simp] theorem asksIn_backward (a : T) (n : Nat) (cs : List (StepCall T)) : asksIn (.backward a n :: cs) = asksIn cs := by
  simp [asksIn, StepCall.asks]
@[simp] theorem stepsIn_backward (a : T) (n : Nat) (cs : List (StepCall T)) :
    stepsIn (.backward a n :: cs) = stepsIn cs + 1 := by
  simp [stepsIn, StepCall.asks, StepCall.compares]

namespace Calls

theorem pure_eq (a : α) : (pure a : Calls T α) = .done a := rfl
theorem bind_eq (x : Calls T α) (f : α → Calls T β) : x >>= f = x.bind f := rfl

theorem path_done {a x : α} {cs : List (StepCall T)} : Path A (.done a) cs x ↔ cs = [] ∧ x = a := by
  constructor
  · rintro ⟨⟩; exact ⟨rfl, rfl⟩
  · rintro ⟨rfl, rfl⟩; exact .done _

theorem path_between {a b : T} {k : Res (Option Nat) → Calls T α} {x : α} {cs : List (StepCall T)} :
    Path A (.between a b k) cs x ↔ ∃ r cs', A.between a b r ∧ Path A (k r) cs' x ∧ cs = .between a b :: cs' := by
  constructor
  · rintro (_ | ⟨h1, h2⟩); exact ⟨_, _, h1, h2, rfl⟩
  · rintro ⟨r, cs', h1, h2, rfl⟩; exact .between h1 h2

theorem path_forward {a : T} {n : Nat} {k : Res T → Calls T α} {x : α} {cs : List (StepCall T)} :
    Path A (.forward a n k) cs x ↔ ∃ r cs', A.forward a n r ∧ Path A (k r) cs' x ∧ cs = .forward a n :: cs' := by
  constructor
  · rintro (_ | _ | ⟨h1, h2⟩); exact ⟨_, _, h1, h2, rfl⟩
  · rintro ⟨r, cs', h1, h2, rfl⟩; exact .forward h1 h2

theorem path_backward {a : T} {n : Nat} {k : Res T → Calls T α} {x : α} {cs : List (StepCall T)} :
    Path A (.backward a n k) cs x ↔ ∃ r cs', A.backward a n r ∧ Path A (k r) cs' x ∧ cs = .backward a n :: cs' := by
  constructor
  · rintro (_ | _ | _ | ⟨h1, h2⟩); exact ⟨_, _, h1, h2, rfl⟩
  · rintro ⟨r, cs', h1, h2, rfl⟩; exact .backward h1 h2

theorem path_greater {a b : T} {k : Res Bool → Calls T α} {x : α} {cs : List (StepCall T)} :
    Path A (.greater a b k) cs x ↔ ∃ r cs', A.greater a b r ∧ Path A (k r) cs' x ∧ cs = .greater a b :: cs' := by
  constructor
  · rintro (_ | _ | _ | _ | ⟨h1, h2⟩); exact ⟨_, _, h1, h2, rfl⟩
  · rintro ⟨r, cs', h1, h2, rfl⟩; exact .greater h1 h2

theorem path_bind {x : Calls T α} {f : α → Calls T β} {y : β} {cs : List (StepCall T)} :
    Path A (x >>= f) cs y ↔ ∃ a c1 c2, Path A x c1 a ∧ Path A (f a) c2 y ∧ cs = c1 ++ c2 := by
  rw [bind_eq]
  induction x generalizing cs with
  | done a =>
    constructor
    · intro h; exact ⟨a, [], cs, .done a, h, rfl⟩
    · rintro ⟨a', c1, c2, h1, h2, rfl⟩
      obtain ⟨rfl, rfl⟩ := path_done.1 h1
      exact h2
  | between a b k ih =>
    rw [Calls.bind, path_between]
    constructor
    · rintro ⟨r, cs', h1, h2, rfl⟩
      obtain ⟨a', c1, c2, i1, i2, rfl⟩ := (ih r).1 h2
      exact ⟨a', _, c2, .between h1 i1, i2, rfl⟩
    · rintro ⟨a', c1, c2, h1, h2, rfl⟩
      obtain ⟨r, cs', i1, i2, rfl⟩ := path_between.1 h1
      exact ⟨r, _, i1, (ih r).2 ⟨a', _, _, i2, h2, rfl⟩, rfl⟩
  | forward a n k ih =>
    rw [Calls.bind, path_forward]
    constructor
    · rintro ⟨r, cs', h1, h2, rfl⟩
      obtain ⟨a', c1, c2, i1, i2, rfl⟩ := (ih r).1 h2
      exact ⟨a', _, c2, .forward h1 i1, i2, rfl⟩
    · rintro ⟨a', c1, c2, h1, h2, rfl⟩
      obtain ⟨r, cs', i1, i2, rfl⟩ := path_forward.1 h1
      exact ⟨r, _, i1, (ih r).2 ⟨a', _, _, i2, h2, rfl⟩, rfl⟩
  | backward a n k ih =>
    rw [Calls.bind, path_backward]
    constructor
    · rintro ⟨r, cs', h1, h2, rfl⟩
      obtain ⟨a', c1, c2, i1, i2, rfl⟩ := (ih r).1 h2
      exact ⟨a', _, c2, .backward h1 i1, i2, rfl⟩
    · rintro ⟨a', c1, c2, h1, h2, rfl⟩
      obtain ⟨r, cs', i1, i2, rfl⟩ := path_backward.1 h1
      exact ⟨r, _, i1, (ih r).2 ⟨a', _, _, i2, h2, rfl⟩, rfl⟩
  | greater a b k ih =>
    rw [Calls.bind, path_greater]
    constructor
    · rintro ⟨r, cs', h1, h2, rfl⟩
      obtain ⟨a', c1, c2, i1, i2, rfl⟩ := (ih r).1 h2
      exact ⟨a', _, c2, .greater h1 i1, i2, rfl⟩
    · rintro ⟨a', c1, c2, h1, h2, rfl⟩
      obtain ⟨r, cs', i1, i2, rfl⟩ := path_greater.1 h1
      exact ⟨r, _, i1, (ih r).2 ⟨a', _, _, i2, h2, rfl⟩, rfl⟩

theorem exec_bind (E : Effects σ T) (x : Calls T α) (f : α → Calls T β) (s : σ) :
    (x >>= f).exec E s = (f (x.exec E s).1).exec E (x.exec E s).2 := by
  rw [bind_eq]
  induction x generalizing s with
  | done a => rfl
  | between a b k ih => exact ih _ _
  | forward a n k ih => exact ih _ _
  | backward a n k ih => exact ih _ _
  | greater a b k ih => exact ih _ _

/-- What a stateful implementation does is a path. -/
theorem exec_path (E : Effects σ T) (x : Calls T α) (s : σ) : Path E.answers x (x.trace E s) (x.exec E s).1 := by
  induction x generalizing s with
  | done a => exact .done a
  | between a b k ih => exact .between ⟨s, rfl⟩ (ih _ _)
  | forward a n k ih => exact .forward ⟨s, rfl⟩ (ih _ _)
  | backward a n k ih => exact .backward ⟨s, rfl⟩ (ih _ _)
  | greater a b k ih => exact .greater ⟨s, rfl⟩ (ih _ _)

/-- What a stateless implementation answers. -/
theorem effects_bind [LinearOrder T] (S : Step T) (x : Calls T α) (f : α → Calls T β) :
    ((x >>= f).exec S.effects ()).1 = ((f (x.exec S.effects ()).1).exec S.effects ()).1 := by
  rw [exec_bind]

end Calls

open Calls

/-! ### Lengths -/

/-- The length a piece reports when `steps_between` answers `o`. -/
def lenOf (p : Platform) : Res (Option Nat) → Res Nat
  | .panic m => .panic m
  | .ok none => .ok 0
  | .ok (some steps) => p.addUsize steps 1

variable {p : Platform}

theorem BoundedRangeIter.path_len {it : BoundedRangeIter T} {cs : List (StepCall T)} {r : Res Nat} :
    Path A (it.lenC p) cs r ↔
      ∃ o, A.between it.current it.last o ∧ r = lenOf p o ∧ cs = [.between it.current it.last] := by
  rw [lenC, path_between]
  constructor
  · rintro ⟨o, cs', h1, h2, rfl⟩
    refine ⟨o, h1, ?_⟩
    rcases o with (_ | k) | m <;> obtain ⟨rfl, rfl⟩ := path_done.1 h2 <;> exact ⟨rfl, rfl⟩
  · rintro ⟨o, h1, rfl, rfl⟩
    refine ⟨o, [], h1, ?_, rfl⟩
    rcases o with (_ | k) | m <;> exact .done _

theorem lenOf_pos {o : Res (Option Nat)} {l : Nat} (h : lenOf p o = .ok l) (hl : l ≠ 0) :
    ∃ k, o = .ok (some k) ∧ l ≤ k + 1 := by
  rcases o with (_ | k) | m
  · cases h; exact absurd rfl hl
  · refine ⟨k, rfl, ?_⟩
    simp only [lenOf, Platform.addUsize] at h
    split at h
    · cases h; exact le_rfl
    · split at h
      · cases h
      · cases h
        exact Nat.mod_le _ _
  · cases h

namespace BoundedSetIter

/-- What the loop that drops pieces of length 0 may do. -/
theorem path_popEmpty {l : List (BoundedRangeIter T)} {cs : List (StepCall T)} {r : Res Unit × List (BoundedRangeIter T)}
    (h : Path A (popEmptyC p l) cs r) :
    r.2 <:+ l ∧ (stepsIn cs = 0 ∧ comparesIn cs = 0) ∧ asksIn cs + r.2.length = l.length + (if r.2 = [] then 0 else 1) ∧
      (∀ m, r.1 = .panic m → r.2 ≠ []) ∧
      ∀ i is, r = (.ok (), i :: is) → ∃ k, A.between i.current i.last (.ok (some k)) := by
  induction l generalizing cs r with
  | nil =>
    obtain ⟨rfl, rfl⟩ := path_done.1 h
    simp
  | cons i is ih =>
    rw [popEmptyC, path_bind] at h
    obtain ⟨x, c1, c2, h1, h2, rfl⟩ := h
    obtain ⟨o, ho, rfl, rfl⟩ := BoundedRangeIter.path_len.1 h1
    cases hl : lenOf p o with
    | panic m =>
      rw [hl] at h2
      obtain ⟨rfl, rfl⟩ := path_done.1 h2
      simp [Nat.add_comm]
    | ok n =>
      rw [hl] at h2
      dsimp only at h2
      split at h2
      · obtain ⟨i1, i2, i3, i4, i5⟩ := ih h2
        refine ⟨i1.trans (List.suffix_cons _ _), by simpa using i2, ?_, i4, i5⟩
        rw [List.singleton_append, asksIn_between, List.length_cons]
        omega
      · rename_i hn
        obtain ⟨rfl, rfl⟩ := path_done.1 h2
        obtain ⟨k, rfl, -⟩ := lenOf_pos hl (by simpa using hn)
        refine ⟨List.suffix_rfl, by simp, by simp [Nat.add_comm], by simp, fun j js e => ?_⟩
        obtain ⟨-, rfl, rfl⟩ : (True ∧ i = j ∧ is = js) := by simpa using e
        exact ⟨k, ho⟩

/-- What the loop that skips whole pieces may do. -/
theorem path_skip {l : List (BoundedRangeIter T)} {n : Nat} {cs : List (StepCall T)}
    {r : Res Nat × List (BoundedRangeIter T)} (h : Path A (skipC p l n) cs r) :
    r.2 <:+ l ∧ (stepsIn cs = 0 ∧ comparesIn cs = 0) ∧ asksIn cs + r.2.length = l.length + (if r.2 = [] then 0 else 1) ∧
      (∀ k, r.1 = .ok k → k ≤ n) ∧ (∀ m, r.1 = .panic m → r.2 ≠ []) ∧
      ∀ j i is, r = (.ok j, i :: is) → ∃ k, A.between i.current i.last (.ok (some k)) ∧ j ≤ k := by
  induction l generalizing n cs r with
  | nil =>
    obtain ⟨rfl, rfl⟩ := path_done.1 h
    simp
  | cons i is ih =>
    rw [skipC, path_bind] at h
    obtain ⟨x, c1, c2, h1, h2, rfl⟩ := h
    obtain ⟨o, ho, rfl, rfl⟩ := BoundedRangeIter.path_len.1 h1
    cases hl : lenOf p o with
    | panic m =>
      rw [hl] at h2
      obtain ⟨rfl, rfl⟩ := path_done.1 h2
      simp [Nat.add_comm]
    | ok q =>
      rw [hl] at h2
      dsimp only at h2
      split at h2
      · rename_i hqn
        have hs : p.subUsize n q = .ok (n - q) := by simp [Platform.subUsize, hqn]
        rw [hs] at h2
        obtain ⟨i1, i2, i3, i4, i5, i6⟩ := ih h2
        refine ⟨i1.trans (List.suffix_cons _ _), by simpa using i2, ?_, fun k hk => le_trans (i4 k hk) (Nat.sub_le _ _),
          i5, i6⟩
        rw [List.singleton_append, asksIn_between, List.length_cons]
        omega
      · rename_i hn
        obtain ⟨rfl, rfl⟩ := path_done.1 h2
        obtain ⟨k, rfl, hk⟩ := lenOf_pos hl (by omega)
        refine ⟨List.suffix_rfl, by simp, by simp [Nat.add_comm], by simp, by simp, fun j j' js e => ?_⟩
        obtain ⟨rfl, rfl, rfl⟩ : (n = j ∧ i = j' ∧ is = js) := by simpa using e
        exact ⟨k, ho, by omega⟩

theorem path_sumLens {l : List (BoundedRangeIter T)} {acc : Nat} {cs : List (StepCall T)} {r : Res Nat}
    (h : Path A (sumLensC p acc l) cs r) :
    (stepsIn cs = 0 ∧ comparesIn cs = 0) ∧ asksIn cs ≤ l.length ∧ ∀ n, r = .ok n → asksIn cs = l.length := by
  induction l generalizing acc cs r with
  | nil =>
    obtain ⟨rfl, rfl⟩ := path_done.1 h
    simp
  | cons i is ih =>
    rw [sumLensC, path_bind] at h
    obtain ⟨x, c1, c2, h1, h2, rfl⟩ := h
    obtain ⟨o, ho, rfl, rfl⟩ := BoundedRangeIter.path_len.1 h1
    cases hl : lenOf p o with
    | panic m =>
      rw [hl] at h2
      obtain ⟨rfl, rfl⟩ := path_done.1 h2
      simp
    | ok n =>
      rw [hl] at h2
      dsimp only at h2
      cases ha : p.addUsize acc n with
      | panic m =>
        rw [ha] at h2
        obtain ⟨rfl, rfl⟩ := path_done.1 h2
        simp
      | ok acc' =>
        rw [ha] at h2
        obtain ⟨i1, i2, i3⟩ := ih h2
        rw [List.singleton_append, asksIn_between, stepsIn_between, comparesIn_between, List.length_cons]
        exact ⟨i1, by omega, fun n hn => by rw [i3 n hn]⟩

end BoundedSetIter

/-! ### Schedules -/

/-- A relation between the two states of a move carries over to schedules. -/
theorem path_caught {τ : Type} {call : τ → Move → Calls T (Res (Option T) × τ)} {s : τ} {m : Move} {ms : List Move}
    {cs : List (StepCall T)} {r : List (Move × Res (Option T)) × τ} (h : Path A (caughtC call s (m :: ms)) cs r) :
    ∃ o s' c1 c2 rs, Path A (call s m) c1 (o, s') ∧ Path A (caughtC call s' ms) c2 rs ∧ cs = c1 ++ c2 ∧
      r = ((m, o) :: rs.1, rs.2) := by
  rw [caughtC, path_bind] at h
  obtain ⟨⟨o, s'⟩, c1, c2, h1, h2, rfl⟩ := h
  obtain ⟨rs, c3, c4, h3, h4, rfl⟩ := path_bind.1 h2
  obtain ⟨rfl, rfl⟩ := path_done.1 h4
  exact ⟨o, s', c1, c3, rs, h1, h3, by simp, rfl⟩

variable [LinearOrder T]

theorem caughtC_safe {τ : Type} {R : τ → T → Prop} {I : τ → Prop} {call : τ → Move → Calls T (Res (Option T) × τ)}
    {P : Move → Prop}
    (h : ∀ s m cs r, P m → I s → Path A (call s m) cs r → SafeMove R I s m.isFront r) (s : τ) (hs : I s) (ms : List Move)
    (hm : ∀ m ∈ ms, P m) {cs : List (StepCall T)} {r : List (Move × Res (Option T)) × τ}
    (hp : Path A (caughtC call s ms) cs r) :
    (delivered r.1).Pairwise (· < ·) ∧ (∀ t ∈ delivered r.1, R s t) := by
  induction ms generalizing s cs r with
  | nil =>
    obtain ⟨rfl, rfl⟩ := path_done.1 hp
    simp [delivered, fronts, backs]
  | cons m ms ih =>
    obtain ⟨o, s', c1, c2, rs, h1, h2, rfl, rfl⟩ := path_caught hp
    have hc := h s m _ _ (hm m (by simp)) hs h1
    obtain ⟨i1, i2⟩ := ih s' hc.inv (fun m' h' => hm m' (List.mem_cons_of_mem _ h')) h2
    simp only [delivered] at i1 i2 ⊢
    rcases o with (_ | t) | _
    · exact ⟨i1, fun t ht => hc.left t (i2 t ht)⟩
    · cases hf : m.isFront
      · simp only [fronts, backs, hf, Bool.false_eq_true, if_false, List.reverse_cons, ← List.append_assoc]
        refine ⟨List.pairwise_append.2 ⟨i1, List.pairwise_singleton _ _, fun x hx y hy => ?_⟩, fun x hx => ?_⟩
        · rw [List.mem_singleton] at hy
          subst hy
          exact hc.back hf _ rfl x (i2 x hx)
        · rcases List.mem_append.1 hx with hx | hx
          · exact hc.left x (i2 x hx)
          · rw [List.mem_singleton] at hx
            subst hx
            exact hc.item _ rfl
      · simp only [fronts, backs, hf, if_true, List.cons_append]
        refine ⟨List.pairwise_cons.2 ⟨fun x hx => hc.front hf _ rfl x (i2 x hx), i1⟩, fun x hx => ?_⟩
        rcases List.mem_cons.1 hx with rfl | hx
        · exact hc.item _ rfl
        · exact hc.left x (i2 x hx)
    · exact ⟨i1, fun t ht => hc.left t (i2 t ht)⟩

/-! ### One move on a range -/

namespace BoundedRangeIter

omit [LinearOrder T] in
/-- `next` compares once, and takes a step if the answer is `false`. -/
theorem path_next {it : BoundedRangeIter T} {cs : List (StepCall T)} {r : Res (Option T) × BoundedRangeIter T}
    (h : Path A it.nextC cs r) :
    asksIn cs = 0 ∧ comparesIn cs = 1 ∧ cs.head? = some (.greater it.current it.last) ∧
      (A.greater it.current it.last (.ok true) ∧ stepsIn cs = 0 ∧ r = (.ok none, it) ∨
        (∃ m, stepsIn cs ≤ 1 ∧ r = (.panic m, it)) ∨
        A.greater it.current it.last (.ok false) ∧ stepsIn cs = 1 ∧
          ∃ c, A.forward it.current 1 (.ok c) ∧ r = (.ok (some it.current), ⟨c, it.last⟩)) := by
  rw [nextC] at h
  obtain ⟨o, cs', h0, h, rfl⟩ := path_greater.1 h
  rcases o with (_ | _) | m
  · obtain ⟨o, cs', h1, h2, rfl⟩ := path_forward.1 h
    cases o with
    | ok c =>
      obtain ⟨rfl, rfl⟩ := path_done.1 h2
      exact ⟨by simp, by simp, rfl, Or.inr (Or.inr ⟨h0, by simp, c, h1, rfl⟩)⟩
    | panic m =>
      obtain ⟨rfl, rfl⟩ := path_done.1 h2
      exact ⟨by simp, by simp, rfl, Or.inr (Or.inl ⟨m, by simp, rfl⟩)⟩
  · obtain ⟨rfl, rfl⟩ := path_done.1 h
    exact ⟨by simp, by simp, rfl, Or.inl ⟨h0, by simp, rfl⟩⟩
  · obtain ⟨rfl, rfl⟩ := path_done.1 h
    exact ⟨by simp, by simp, rfl, Or.inr (Or.inl ⟨m, by simp, rfl⟩)⟩

omit [LinearOrder T] in
theorem path_nextBack {it : BoundedRangeIter T} {cs : List (StepCall T)} {r : Res (Option T) × BoundedRangeIter T}
    (h : Path A it.nextBackC cs r) :
    asksIn cs = 0 ∧ comparesIn cs = 1 ∧ cs.head? = some (.greater it.current it.last) ∧
      (A.greater it.current it.last (.ok true) ∧ stepsIn cs = 0 ∧ r = (.ok none, it) ∨
        (∃ m, stepsIn cs ≤ 1 ∧ r = (.panic m, it)) ∨
        A.greater it.current it.last (.ok false) ∧ stepsIn cs = 1 ∧
          ∃ c, A.backward it.last 1 (.ok c) ∧ r = (.ok (some it.last), ⟨it.current, c⟩)) := by
  rw [nextBackC] at h
  obtain ⟨o, cs', h0, h, rfl⟩ := path_greater.1 h
  rcases o with (_ | _) | m
  · obtain ⟨o, cs', h1, h2, rfl⟩ := path_backward.1 h
    cases o with
    | ok c =>
      obtain ⟨rfl, rfl⟩ := path_done.1 h2
      exact ⟨by simp, by simp, rfl, Or.inr (Or.inr ⟨h0, by simp, c, h1, rfl⟩)⟩
    | panic m =>
      obtain ⟨rfl, rfl⟩ := path_done.1 h2
      exact ⟨by simp, by simp, rfl, Or.inr (Or.inl ⟨m, by simp, rfl⟩)⟩
  · obtain ⟨rfl, rfl⟩ := path_done.1 h
    exact ⟨by simp, by simp, rfl, Or.inl ⟨h0, by simp, rfl⟩⟩
  · obtain ⟨rfl, rfl⟩ := path_done.1 h
    exact ⟨by simp, by simp, rfl, Or.inr (Or.inl ⟨m, by simp, rfl⟩)⟩

omit [LinearOrder T] in
theorem path_nth {it : BoundedRangeIter T} {n : Nat} {cs : List (StepCall T)} {r : Res (Option T) × BoundedRangeIter T}
    (h : Path A (it.nthC n) cs r) :
    (∃ m, A.forward it.current n (.panic m) ∧ r = (.panic m, it) ∧ cs = [.forward it.current n]) ∨
      ∃ c cs', A.forward it.current n (.ok c) ∧ Path A (nextC ⟨c, it.last⟩) cs' r ∧ cs = .forward it.current n :: cs' := by
  rw [nthC] at h
  obtain ⟨o, cs', h1, h2, rfl⟩ := path_forward.1 h
  cases o with
  | ok c => exact Or.inr ⟨c, cs', h1, h2, rfl⟩
  | panic m =>
    obtain ⟨rfl, rfl⟩ := path_done.1 h2
    exact Or.inl ⟨m, h1, rfl, rfl⟩

omit [LinearOrder T] in
theorem path_nthBack {it : BoundedRangeIter T} {n : Nat} {cs : List (StepCall T)} {r : Res (Option T) × BoundedRangeIter T}
    (h : Path A (it.nthBackC n) cs r) :
    (∃ m, A.backward it.last n (.panic m) ∧ r = (.panic m, it) ∧ cs = [.backward it.last n]) ∨
      ∃ c cs', A.backward it.last n (.ok c) ∧ Path A (nextBackC ⟨it.current, c⟩) cs' r ∧
        cs = .backward it.last n :: cs' := by
  rw [nthBackC] at h
  obtain ⟨o, cs', h1, h2, rfl⟩ := path_backward.1 h
  cases o with
  | ok c => exact Or.inr ⟨c, cs', h1, h2, rfl⟩
  | panic m =>
    obtain ⟨rfl, rfl⟩ := path_done.1 h2
    exact Or.inl ⟨m, h1, rfl, rfl⟩

omit [LinearOrder T] in
/-- The work of one move. -/
theorem path_work {it : BoundedRangeIter T} {m : Move} {cs : List (StepCall T)} {r : Res (Option T) × BoundedRangeIter T}
    (h : Path A (it.moveC m) cs r) :
    asksIn cs = 0 ∧ stepsIn cs ≤ m.steps ∧ comparesIn cs ≤ 1 ∧ ((∀ q, r.1 ≠ .panic q) → comparesIn cs = 1) := by
  cases m with
  | next =>
    obtain ⟨h1, h2, -, h3⟩ := path_next h
    refine ⟨h1, ?_, h2.le, fun _ => h2⟩
    simp only [Move.steps]
    rcases h3 with ⟨-, h, -⟩ | ⟨m, h, -⟩ | ⟨-, h, -⟩ <;> omega
  | nextBack =>
    obtain ⟨h1, h2, -, h3⟩ := path_nextBack h
    refine ⟨h1, ?_, h2.le, fun _ => h2⟩
    simp only [Move.steps]
    rcases h3 with ⟨-, h, -⟩ | ⟨m, h, -⟩ | ⟨-, h, -⟩ <;> omega
  | nth n =>
    rcases path_nth h with ⟨m, -, rfl, rfl⟩ | ⟨c, cs', -, h', rfl⟩
    · simp [Move.steps]
    · obtain ⟨h1, h2, -, h3⟩ := path_next h'
      rw [asksIn_forward, stepsIn_forward, comparesIn_forward]
      refine ⟨h1, ?_, h2.le, fun _ => h2⟩
      simp only [Move.steps]
      rcases h3 with ⟨-, h, -⟩ | ⟨m, h, -⟩ | ⟨-, h, -⟩ <;> omega
  | nthBack n =>
    rcases path_nthBack h with ⟨m, -, rfl, rfl⟩ | ⟨c, cs', -, h', rfl⟩
    · simp [Move.steps]
    · obtain ⟨h1, h2, -, h3⟩ := path_nextBack h'
      rw [asksIn_backward, stepsIn_backward, comparesIn_backward]
      refine ⟨h1, ?_, h2.le, fun _ => h2⟩
      simp only [Move.steps]
      rcases h3 with ⟨-, h, -⟩ | ⟨m, h, -⟩ | ⟨-, h, -⟩ <;> omega

theorem path_safe_next (C : A.Climbs p) {it : BoundedRangeIter T} {cs : List (StepCall T)}
    {r : Res (Option T) × BoundedRangeIter T} (h : Path A it.nextC cs r) : SafeMove Left (fun _ => True) it true r := by
  obtain ⟨-, -, -, ⟨-, -, rfl⟩ | ⟨m, -, rfl⟩ | ⟨hle, -, c, hc, rfl⟩⟩ := path_next h
  · exact ⟨trivial, fun _ h => h, by simp, by simp, by simp⟩
  · exact ⟨trivial, fun _ h => h, by simp, by simp, by simp⟩
  · have hle := C.not_greater _ _ hle
    have hc := C.forward_lt _ _ hc
    refine ⟨trivial, fun t h => ⟨le_trans (le_of_lt hc) h.1, h.2⟩, fun t ht => ?_, fun _ t ht u hu' => ?_, by simp⟩
    · simp only [Res.ok.injEq, Option.some.injEq] at ht
      subst ht
      exact ⟨le_rfl, hle⟩
    · simp only [Res.ok.injEq, Option.some.injEq] at ht
      subst ht
      exact lt_of_lt_of_le hc hu'.1

theorem path_safe_nextBack (C : A.Climbs p) {it : BoundedRangeIter T} {cs : List (StepCall T)}
    {r : Res (Option T) × BoundedRangeIter T} (h : Path A it.nextBackC cs r) :
    SafeMove Left (fun _ => True) it false r := by
  obtain ⟨-, -, -, ⟨-, -, rfl⟩ | ⟨m, -, rfl⟩ | ⟨hle, -, c, hc, rfl⟩⟩ := path_nextBack h
  · exact ⟨trivial, fun _ h => h, by simp, by simp, by simp⟩
  · exact ⟨trivial, fun _ h => h, by simp, by simp, by simp⟩
  · have hle := C.not_greater _ _ hle
    have hc := C.backward_lt _ _ hc
    refine ⟨trivial, fun t h => ⟨h.1, le_trans h.2 (le_of_lt hc)⟩, fun t ht => ?_, by simp, fun _ t ht u hu' => ?_⟩
    · simp only [Res.ok.injEq, Option.some.injEq] at ht
      subst ht
      exact ⟨hle, le_rfl⟩
    · simp only [Res.ok.injEq, Option.some.injEq] at ht
      subst ht
      exact lt_of_le_of_lt hu'.2 hc

theorem path_safe_nth (C : A.Climbs p) {it : BoundedRangeIter T} {n : Nat} (hn : n < p.usizeCount) {cs : List (StepCall T)}
    {r : Res (Option T) × BoundedRangeIter T} (h : Path A (it.nthC n) cs r) :
    SafeMove Left (fun _ => True) it true r := by
  rcases path_nth h with ⟨m, -, rfl, -⟩ | ⟨c, cs', hc, h', -⟩
  · exact ⟨trivial, fun _ h => h, by simp, by simp, by simp⟩
  · exact (path_safe_next C h').trans fun t h => ⟨le_trans (C.forward_le _ _ _ hn hc) h.1, h.2⟩

theorem path_safe_nthBack (C : A.Climbs p) {it : BoundedRangeIter T} {n : Nat} (hn : n < p.usizeCount)
    {cs : List (StepCall T)} {r : Res (Option T) × BoundedRangeIter T} (h : Path A (it.nthBackC n) cs r) :
    SafeMove Left (fun _ => True) it false r := by
  rcases path_nthBack h with ⟨m, -, rfl, -⟩ | ⟨c, cs', hc, h', -⟩
  · exact ⟨trivial, fun _ h => h, by simp, by simp, by simp⟩
  · exact (path_safe_nextBack C h').trans fun t h => ⟨h.1, le_trans h.2 (C.backward_le _ _ _ hn hc)⟩

theorem path_safe (C : A.Climbs p) {it : BoundedRangeIter T} {m : Move} (hm : m.arg < p.usizeCount)
    {cs : List (StepCall T)} {r : Res (Option T) × BoundedRangeIter T} (h : Path A (it.moveC m) cs r) :
    SafeMove Left (fun _ => True) it m.isFront r := by
  cases m with
  | next => exact path_safe_next C h
  | nextBack => exact path_safe_nextBack C h
  | nth n => exact path_safe_nth C hm h
  | nthBack n => exact path_safe_nthBack C hm h

end BoundedRangeIter

/-! ### One move on a set -/

namespace BoundedSetIter

omit [LinearOrder T] in
/-- One move on a set: a loop over pieces, then at most one move of a piece. -/
theorem path_move {it : BoundedSetIter T} {m : Move} {cs : List (StepCall T)} {r : Res (Option T) × BoundedSetIter T}
    (h : Path A (it.moveC p m) cs r) :
    ∃ l, l <:+ (if m.isFront then it.rangeIters else it.rangeIters.reverse) ∧
      ∃ c1 c2, cs = c1 ++ c2 ∧ (stepsIn c1 = 0 ∧ comparesIn c1 = 0) ∧
        asksIn c1 + l.length = it.rangeIters.length + (if l = [] then 0 else 1) ∧
        ((c2 = [] ∧ ((∃ q, r.1 = .panic q ∧ l ≠ []) ∨ r.1 = .ok none ∧ l = []) ∧
            r.2 = ⟨if m.isFront then l else l.reverse⟩) ∨
          ∃ i is m' o k, l = i :: is ∧ Path A (i.moveC m') c2 o ∧ m'.isFront = m.isFront ∧ m'.arg ≤ m.arg ∧
            (m = .next → m' = .next) ∧ (m = .nextBack → m' = .nextBack) ∧ (∀ n, m = .nth n → ∃ n', m' = .nth n') ∧
            A.between i.current i.last (.ok (some k)) ∧ m'.arg ≤ k ∧
            r = (o.1, ⟨if m.isFront then o.2 :: is else (o.2 :: is).reverse⟩)) := by
  cases m with
  | next =>
    rw [moveC, nextC, path_bind] at h
    obtain ⟨⟨x, l⟩, c1, c2, h1, h2, rfl⟩ := h
    obtain ⟨i1, i2, i3, i4, i5⟩ := path_popEmpty h1
    refine ⟨l, i1, c1, c2, rfl, i2, i3, ?_⟩
    cases x with
    | panic q =>
      obtain ⟨rfl, rfl⟩ := path_done.1 h2
      exact Or.inl ⟨rfl, Or.inl ⟨q, rfl, i4 q rfl⟩, rfl⟩
    | ok u =>
      cases l with
      | nil =>
        obtain ⟨rfl, rfl⟩ := path_done.1 h2
        exact Or.inl ⟨rfl, Or.inr ⟨rfl, rfl⟩, rfl⟩
      | cons i is =>
        obtain ⟨o, c3, c4, h3, h4, rfl⟩ := path_bind.1 h2
        obtain ⟨rfl, rfl⟩ := path_done.1 h4
        obtain ⟨k, hk⟩ := i5 i is rfl
        exact Or.inr ⟨i, is, .next, o, k, rfl, by rw [List.append_nil]; exact h3, rfl, le_rfl, fun _ => rfl, by simp, by simp, hk,
          Nat.zero_le _, rfl⟩
  | nextBack =>
    rw [moveC, nextBackC, path_bind] at h
    obtain ⟨⟨x, l⟩, c1, c2, h1, h2, rfl⟩ := h
    obtain ⟨i1, i2, i3, i4, i5⟩ := path_popEmpty h1
    refine ⟨l, i1, c1, c2, rfl, i2, by simpa using i3, ?_⟩
    cases x with
    | panic q =>
      obtain ⟨rfl, rfl⟩ := path_done.1 h2
      exact Or.inl ⟨rfl, Or.inl ⟨q, rfl, i4 q rfl⟩, rfl⟩
    | ok u =>
      cases l with
      | nil =>
        obtain ⟨rfl, rfl⟩ := path_done.1 h2
        exact Or.inl ⟨rfl, Or.inr ⟨rfl, rfl⟩, rfl⟩
      | cons i is =>
        obtain ⟨o, c3, c4, h3, h4, rfl⟩ := path_bind.1 h2
        obtain ⟨rfl, rfl⟩ := path_done.1 h4
        obtain ⟨k, hk⟩ := i5 i is rfl
        exact Or.inr ⟨i, is, .nextBack, o, k, rfl, by rw [List.append_nil]; exact h3, rfl, le_rfl, by simp, fun _ => rfl, by simp, hk,
          Nat.zero_le _, rfl⟩
  | nth n =>
    rw [moveC, nthC, path_bind] at h
    obtain ⟨⟨x, l⟩, c1, c2, h1, h2, rfl⟩ := h
    obtain ⟨i1, i2, i3, i4, i5, i6⟩ := path_skip h1
    refine ⟨l, i1, c1, c2, rfl, i2, i3, ?_⟩
    cases x with
    | panic q =>
      obtain ⟨rfl, rfl⟩ := path_done.1 h2
      exact Or.inl ⟨rfl, Or.inl ⟨q, rfl, i5 q rfl⟩, rfl⟩
    | ok u =>
      cases l with
      | nil =>
        obtain ⟨rfl, rfl⟩ := path_done.1 h2
        exact Or.inl ⟨rfl, Or.inr ⟨rfl, rfl⟩, rfl⟩
      | cons i is =>
        obtain ⟨o, c3, c4, h3, h4, rfl⟩ := path_bind.1 h2
        obtain ⟨rfl, rfl⟩ := path_done.1 h4
        obtain ⟨k, hk, hu⟩ := i6 u i is rfl
        exact Or.inr ⟨i, is, .nth u, o, k, rfl, by rw [List.append_nil]; exact h3, rfl, i4 u rfl, by simp, by simp, fun _ _ => ⟨u, rfl⟩, hk,
          hu, rfl⟩
  | nthBack n =>
    rw [moveC, nthBackC, path_bind] at h
    obtain ⟨⟨x, l⟩, c1, c2, h1, h2, rfl⟩ := h
    obtain ⟨i1, i2, i3, i4, i5, i6⟩ := path_skip h1
    refine ⟨l, i1, c1, c2, rfl, i2, by simpa using i3, ?_⟩
    cases x with
    | panic q =>
      obtain ⟨rfl, rfl⟩ := path_done.1 h2
      exact Or.inl ⟨rfl, Or.inl ⟨q, rfl, i5 q rfl⟩, rfl⟩
    | ok u =>
      cases l with
      | nil =>
        obtain ⟨rfl, rfl⟩ := path_done.1 h2
        exact Or.inl ⟨rfl, Or.inr ⟨rfl, rfl⟩, rfl⟩
      | cons i is =>
        obtain ⟨o, c3, c4, h3, h4, rfl⟩ := path_bind.1 h2
        obtain ⟨rfl, rfl⟩ := path_done.1 h4
        obtain ⟨k, hk, hu⟩ := i6 u i is rfl
        exact Or.inr ⟨i, is, .nthBack u, o, k, rfl, by rw [List.append_nil]; exact h3, rfl, i4 u rfl, by simp, by simp, by simp, hk, hu, rfl⟩

omit [LinearOrder T] in
/-- The work of one move: one question for each piece that goes, one for the piece that stays. -/
theorem path_work {it : BoundedSetIter T} {m : Move} {cs : List (StepCall T)} {r : Res (Option T) × BoundedSetIter T}
    (h : Path A (it.moveC p m) cs r) :
    asksIn cs + r.2.rangeIters.length = it.rangeIters.length + (if r.2.rangeIters = [] then 0 else 1) ∧
      stepsIn cs ≤ m.steps ∧ comparesIn cs ≤ 1 ∧
      ((∀ q, r.1 ≠ .panic q) → comparesIn cs = if r.2.rangeIters = [] then 0 else 1) := by
  obtain ⟨l, -, c1, c2, rfl, h1, h2, ⟨rfl, hn, hr⟩ | ⟨i, is, m', o, k, rfl, ho, hf, -, e1, e2, -, -, -, rfl⟩⟩ := path_move h
  · rw [hr, List.append_nil]
    refine ⟨?_, by omega, by omega, fun hq => ?_⟩
    · cases m.isFront <;> simpa using h2
    · rcases hn with ⟨q, e, -⟩ | ⟨-, rfl⟩
      · exact absurd e (hq q)
      · rw [h1.2]
        cases m.isFront <;> rfl
  · obtain ⟨w1, w2, w3, w4⟩ := BoundedRangeIter.path_work ho
    rw [asksIn_append, stepsIn_append, comparesIn_append, w1, h1.1, h1.2]
    refine ⟨?_, ?_, by omega, fun hq => ?_⟩
    · cases m.isFront <;> simpa using h2
    · cases m with
      | next => rw [e1 rfl] at w2; simpa using w2
      | nextBack => rw [e2 rfl] at w2; simpa using w2
      | _ => refine le_trans (Nat.add_le_add_left w2 0) ?_; cases m' <;> simp [Move.steps]
    · rw [w4 hq]
      cases m.isFront <;> simp

omit [LinearOrder T] in
theorem path_length {it : BoundedSetIter T} {m : Move} {cs : List (StepCall T)} {r : Res (Option T) × BoundedSetIter T}
    (h : Path A (it.moveC p m) cs r) : r.2.rangeIters.length ≤ it.rangeIters.length := by
  obtain ⟨l, hl, c1, c2, rfl, -, -, ⟨-, -, hr⟩ | ⟨i, is, m', o, k, rfl, -, -, -, -, -, -, -, -, rfl⟩⟩ := path_move h
  · have := hl.length_le
    rw [hr]
    cases hf : m.isFront <;> rw [hf] at this <;> simpa using this
  · have := hl.length_le
    cases hf : m.isFront <;> rw [hf] at this <;> simpa using this

omit [LinearOrder T] in
theorem path_nil {ms : List Move} {cs : List (StepCall T)} {r : List (Move × Res (Option T)) × BoundedSetIter T}
    (h : Path A (caughtC (moveC p) ⟨[]⟩ ms) cs r) : r.2.rangeIters = [] := by
  induction ms generalizing cs r with
  | nil => obtain ⟨-, rfl⟩ := path_done.1 h; rfl
  | cons m ms ih =>
    obtain ⟨o, ⟨l⟩, c1, c2, rs, h1, h2, rfl, rfl⟩ := path_caught h
    have := path_length h1
    obtain rfl : l = [] := List.length_eq_zero_iff.1 (Nat.le_zero.1 this)
    exact (ih h2 :)

omit [LinearOrder T] in
theorem path_next_cases (hb : ∀ a b k, A.between a b (.ok (some k)) → ¬A.greater a b (.ok true)) {it s' : BoundedSetIter T}
    {cs : List (StepCall T)} {o : Res (Option T)} (h : Path A (it.moveC p .next) cs (o, s')) (ho : ∀ q, o ≠ .panic q) :
    ((o = .ok none ∧ s' = ⟨[]⟩) ∧ stepsIn cs = 0) ∨ ∃ t, o = .ok (some t) ∧ stepsIn cs = 1 ∧ s'.rangeIters ≠ [] := by
  obtain ⟨l, -, c1, c2, rfl, h1, -, ⟨rfl, hn, hr⟩ | ⟨i, is, m', o', k, rfl, ho', -, -, e1, -, -, hk, -, e⟩⟩ := path_move h
  · rcases hn with ⟨q, e, -⟩ | ⟨e, rfl⟩
    · exact absurd e (ho q)
    · exact Or.inl ⟨⟨e, hr⟩, by simpa using h1.1⟩
  · rw [e1 rfl] at ho'
    obtain ⟨-, -, -, ⟨hlt, -, rfl⟩ | ⟨m, -, rfl⟩ | ⟨-, w2, c, -, rfl⟩⟩ := BoundedRangeIter.path_next ho'
    · exact absurd hlt (hb _ _ _ hk)
    · obtain ⟨rfl, -⟩ := Prod.mk.inj e
      exact absurd rfl (ho m)
    · obtain ⟨rfl, rfl⟩ := Prod.mk.inj e
      exact Or.inr ⟨_, rfl, by rw [stepsIn_append, h1.1, w2], by simp [Move.isFront]⟩

theorem path_safe (C : A.Climbs p) {s : BoundedSetIter T} (hs : s.Sorted) {m : Move} (hm : m.arg < p.usizeCount)
    {cs : List (StepCall T)} {r : Res (Option T) × BoundedSetIter T} (h : Path A (s.moveC p m) cs r) :
    SafeMove Left Sorted s m.isFront r := by
  obtain ⟨l, hl, c1, c2, rfl, -, -, ⟨-, hn, hr⟩ | ⟨i, is, m', o, k, rfl, ho, hf, ha, -, -, -, -, -, rfl⟩⟩ := path_move h
  · obtain ⟨o, s'⟩ := r
    dsimp only at hn hr
    subst hr
    have hn : ∀ t, o ≠ .ok (some t) := by
      rintro t rfl
      rcases hn with ⟨q, e, -⟩ | ⟨e, -⟩ <;> cases e
    cases hf : m.isFront <;> rw [hf] at hl
    · exact safe_dropBack hs hl hn _
    · exact safe_dropFront hs hl hn _
  · have := BoundedRangeIter.path_safe C (lt_of_le_of_lt ha hm) ho
    rw [hf] at this
    cases hf : m.isFront <;> rw [hf] at hl this
    · exact safe_back hs hl this
    · exact safe_front hs hl this

/-- With a `steps_between` that keeps its promises, `None` means that no piece is left. -/
theorem path_none (P : A.Promises p) {s : BoundedSetIter T} {m : Move} (hf : m.isFront = true) (hm : m.arg < p.usizeCount)
    {cs : List (StepCall T)} {r : Res (Option T) × BoundedSetIter T} (h : Path A (s.moveC p m) cs r)
    (hr : r.1 = .ok none) : r.2 = ⟨[]⟩ := by
  obtain ⟨l, hl, c1, c2, rfl, -, -, ⟨-, hn, h2⟩ | ⟨i, is, m', o, k, rfl, ho, hf', ha, -, -, -, hk, hak, rfl⟩⟩ := path_move h
  · rcases hn with ⟨q, e, -⟩ | ⟨-, rfl⟩
    · rw [hr] at e; cases e
    · rw [h2, if_pos hf]
  · exfalso
    rw [hf] at hf'
    cases m' with
    | next =>
      obtain ⟨-, -, -, ⟨h, -, -⟩ | ⟨m, -, rfl⟩ | ⟨-, -, c, -, rfl⟩⟩ := BoundedRangeIter.path_next ho
      · exact absurd (P.le _ _ _ hk) (not_le.2 (P.greater _ _ h))
      · cases hr
      · cases hr
    | nth n =>
      rcases BoundedRangeIter.path_nth ho with ⟨m, -, rfl, -⟩ | ⟨c, cs', hc, h', -⟩
      · cases hr
      · have hc := P.forward _ _ _ _ _ (lt_of_le_of_lt ha hm) hk hak hc
        obtain ⟨-, -, -, ⟨h, -, -⟩ | ⟨m, -, rfl⟩ | ⟨-, -, c, -, rfl⟩⟩ := BoundedRangeIter.path_next h'
        · exact absurd hc (not_le.2 (P.greater _ _ h))
        · cases hr
        · cases hr
    | nextBack => cases hf'
    | nthBack n => cases hf'

end BoundedSetIter

/-! ### Half-lines -/

namespace LowerBoundedRangeIter

omit [LinearOrder T] in
theorem path_next {it : LowerBoundedRangeIter T} {cs : List (StepCall T)} {r : Res (Option T) × LowerBoundedRangeIter T}
    (h : Path A it.nextC cs r) :
    cs = [.forward it.current 1] ∧
      ((∃ m, A.forward it.current 1 (.panic m) ∧ r = (.panic m, it)) ∨
        ∃ c, A.forward it.current 1 (.ok c) ∧ r = (.ok (some it.current), ⟨c⟩)) := by
  rw [nextC] at h
  obtain ⟨o, cs', h1, h2, rfl⟩ := path_forward.1 h
  cases o with
  | ok c =>
    obtain ⟨rfl, rfl⟩ := path_done.1 h2
    exact ⟨rfl, Or.inr ⟨c, h1, rfl⟩⟩
  | panic m =>
    obtain ⟨rfl, rfl⟩ := path_done.1 h2
    exact ⟨rfl, Or.inl ⟨m, h1, rfl⟩⟩

omit [LinearOrder T] in
theorem path_nth {it : LowerBoundedRangeIter T} {n : Nat} {cs : List (StepCall T)}
    {r : Res (Option T) × LowerBoundedRangeIter T} (h : Path A (it.nthC n) cs r) :
    (∃ m, A.forward it.current n (.panic m) ∧ r = (.panic m, it) ∧ cs = [.forward it.current n]) ∨
      ∃ c cs', A.forward it.current n (.ok c) ∧ Path A (nextC ⟨c⟩) cs' r ∧ cs = .forward it.current n :: cs' := by
  rw [nthC] at h
  obtain ⟨o, cs', h1, h2, rfl⟩ := path_forward.1 h
  cases o with
  | ok c => exact Or.inr ⟨c, cs', h1, h2, rfl⟩
  | panic m =>
    obtain ⟨rfl, rfl⟩ := path_done.1 h2
    exact Or.inl ⟨m, h1, rfl, rfl⟩

omit [LinearOrder T] in
theorem path_work {it : LowerBoundedRangeIter T} {m : Move} {cs : List (StepCall T)}
    {r : Res (Option T) × LowerBoundedRangeIter T} (h : Path A (it.moveC m) cs r) :
    asksIn cs = 0 ∧ stepsIn cs ≤ m.steps ∧ comparesIn cs = 0 := by
  cases m with
  | next => obtain ⟨rfl, -⟩ := path_next h; simp [Move.steps]
  | nth n =>
    rcases path_nth h with ⟨m, -, -, rfl⟩ | ⟨c, cs', -, h', rfl⟩
    · simp [Move.steps]
    · obtain ⟨rfl, -⟩ := path_next h'; simp [Move.steps]
  | nextBack => obtain ⟨rfl, -⟩ := path_done.1 h; simp [Move.steps]
  | nthBack n => obtain ⟨rfl, -⟩ := path_done.1 h; simp [Move.steps]

theorem path_safe_next (C : A.Climbs p) {it : LowerBoundedRangeIter T} {cs : List (StepCall T)}
    {r : Res (Option T) × LowerBoundedRangeIter T} (h : Path A it.nextC cs r) :
    SafeMove Left (fun _ => True) it true r := by
  obtain ⟨-, ⟨m, -, rfl⟩ | ⟨c, hc, rfl⟩⟩ := path_next h
  · exact ⟨trivial, fun _ h => h, by simp, by simp, by simp⟩
  · have hc := C.forward_lt _ _ hc
    refine ⟨trivial, fun t h => le_trans (le_of_lt hc) h, fun t ht => ?_, fun _ t ht u hu' => ?_, by simp⟩
    · simp only [Res.ok.injEq, Option.some.injEq] at ht
      subst ht
      exact le_rfl
    · simp only [Res.ok.injEq, Option.some.injEq] at ht
      subst ht
      exact lt_of_lt_of_le hc hu'

theorem path_safe_nth (C : A.Climbs p) {it : LowerBoundedRangeIter T} {n : Nat} (hn : n < p.usizeCount)
    {cs : List (StepCall T)} {r : Res (Option T) × LowerBoundedRangeIter T} (h : Path A (it.nthC n) cs r) :
    SafeMove Left (fun _ => True) it true r := by
  rcases path_nth h with ⟨m, -, rfl, -⟩ | ⟨c, cs', hc, h', -⟩
  · exact ⟨trivial, fun _ h => h, by simp, by simp, by simp⟩
  · exact (path_safe_next C h').trans fun t h => le_trans (C.forward_le _ _ _ hn hc) h

theorem path_safe (C : A.Climbs p) {it : LowerBoundedRangeIter T} {m : Move} (hm : m.arg < p.usizeCount)
    {cs : List (StepCall T)} {r : Res (Option T) × LowerBoundedRangeIter T} (h : Path A (it.moveC m) cs r) :
    SafeMove Left (fun _ => True) it m.isFront r := by
  cases m with
  | next => exact path_safe_next C h
  | nth n => exact path_safe_nth C hm h
  | nextBack => obtain ⟨-, rfl⟩ := path_done.1 h; exact ⟨trivial, fun _ h => h, by simp, by simp, by simp⟩
  | nthBack n => obtain ⟨-, rfl⟩ := path_done.1 h; exact ⟨trivial, fun _ h => h, by simp, by simp, by simp⟩

end LowerBoundedRangeIter

namespace LowerBoundedSetIter

omit [LinearOrder T] in
/-- `next` on a set with a half-line. -/
theorem path_next {it : LowerBoundedSetIter T} {cs : List (StepCall T)} {r : Res (Option T) × LowerBoundedSetIter T}
    (h : Path A (it.nextC p) cs r) :
    ∃ c1 c2 o s', Path A (it.setIter.moveC p .next) c1 (o, s') ∧ cs = c1 ++ c2 ∧
      (o ≠ .ok none ∧ c2 = [] ∧ r = (o, ⟨s', it.rangeIter⟩) ∨
        o = .ok none ∧ ∃ q, Path A (it.rangeIter.moveC .next) c2 q ∧ r = (q.1, ⟨s', q.2⟩)) := by
  rw [nextC, path_bind] at h
  obtain ⟨⟨o, s'⟩, c1, c2, h1, h2, rfl⟩ := h
  refine ⟨c1, c2, o, s', h1, rfl, ?_⟩
  rcases o with (_ | t) | m
  · obtain ⟨q, c3, c4, h3, h4, rfl⟩ := path_bind.1 h2
    obtain ⟨rfl, rfl⟩ := path_done.1 h4
    exact Or.inr ⟨rfl, q, by rw [List.append_nil]; exact h3, rfl⟩
  · obtain ⟨rfl, rfl⟩ := path_done.1 h2
    exact Or.inl ⟨by simp, rfl, rfl⟩
  · obtain ⟨rfl, rfl⟩ := path_done.1 h2
    exact Or.inl ⟨by simp, rfl, rfl⟩

omit [LinearOrder T] in
/-- `nth` on a set with a half-line. -/
theorem path_nth {it : LowerBoundedSetIter T} {n : Nat} {cs : List (StepCall T)}
    {r : Res (Option T) × LowerBoundedSetIter T} (h : Path A (it.nthC p n) cs r) :
    ∃ c0 x, Path A (it.setIter.lenC p) c0 x ∧
      ((∃ m, x = .panic m ∧ cs = c0 ∧ r = (.panic m, it)) ∨
        ∃ b c1 c2 o s', x = .ok b ∧ Path A (it.setIter.moveC p (.nth n)) c1 (o, s') ∧ cs = c0 ++ c1 ++ c2 ∧
          (c2 = [] ∧ r.2 = ⟨s', it.rangeIter⟩ ∧ (r.1 = o ∨ o = .ok none ∧ ∃ m, r.1 = .panic m) ∧ (o = .ok none → r.1 ≠ .ok none) ∨
            o = .ok none ∧ ∃ k q, p.subUsize n b = .ok k ∧ Path A (it.rangeIter.moveC (.nth k)) c2 q ∧
              r = (q.1, ⟨s', q.2⟩))) := by
  rw [nthC, path_bind] at h
  obtain ⟨x, c0, c', h0, h', rfl⟩ := h
  refine ⟨c0, x, h0, ?_⟩
  cases x with
  | panic m =>
    obtain ⟨rfl, rfl⟩ := path_done.1 h'
    exact Or.inl ⟨m, rfl, by simp, rfl⟩
  | ok b =>
    obtain ⟨⟨o, s'⟩, c1, c2, h1, h2, rfl⟩ := path_bind.1 h'
    refine Or.inr ⟨b, c1, c2, o, s', rfl, h1, by simp, ?_⟩
    rcases o with (_ | t) | m
    · dsimp only at h2
      cases hk : p.subUsize n b with
      | panic m =>
        rw [hk] at h2
        obtain ⟨rfl, rfl⟩ := path_done.1 h2
        exact Or.inl ⟨rfl, rfl, Or.inr ⟨rfl, m, rfl⟩, by simp⟩
      | ok k =>
        rw [hk] at h2
        obtain ⟨q, c3, c4, h3, h4, rfl⟩ := path_bind.1 h2
        obtain ⟨rfl, rfl⟩ := path_done.1 h4
        exact Or.inr ⟨rfl, k, q, rfl, by rw [List.append_nil]; exact h3, rfl⟩
    · obtain ⟨rfl, rfl⟩ := path_done.1 h2
      exact Or.inl ⟨rfl, rfl, Or.inl rfl, by simp⟩
    · obtain ⟨rfl, rfl⟩ := path_done.1 h2
      exact Or.inl ⟨rfl, rfl, Or.inl rfl, by simp⟩

omit [LinearOrder T] in
/-- The work of `next`. -/
theorem path_work_next {it : LowerBoundedSetIter T} {cs : List (StepCall T)} {r : Res (Option T) × LowerBoundedSetIter T}
    (h : Path A (it.nextC p) cs r) :
    asksIn cs + r.2.setIter.rangeIters.length =
        it.setIter.rangeIters.length + (if r.2.setIter.rangeIters = [] then 0 else 1) ∧ stepsIn cs ≤ 2 ∧ comparesIn cs ≤ 1 := by
  obtain ⟨c1, c2, o, s', h1, rfl, ⟨-, rfl, rfl⟩ | ⟨-, q, h2, rfl⟩⟩ := path_next h <;>
    obtain ⟨w1, w2, w3, -⟩ := BoundedSetIter.path_work h1
  · rw [List.append_nil]
    exact ⟨w1, le_trans w2 (by simp [Move.steps]), w3⟩
  · obtain ⟨v1, v2, v3⟩ := LowerBoundedRangeIter.path_work h2
    rw [asksIn_append, stepsIn_append, comparesIn_append, v1, v3]
    exact ⟨w1, Nat.add_le_add w2 v2, w3⟩

omit [LinearOrder T] in
/-- The work of `nth`: it asks every piece for its length, and then asks again. -/
theorem path_work_nth {it : LowerBoundedSetIter T} {n : Nat} {cs : List (StepCall T)}
    {r : Res (Option T) × LowerBoundedSetIter T} (h : Path A (it.nthC p n) cs r) :
    asksIn cs + r.2.setIter.rangeIters.length ≤
        2 * it.setIter.rangeIters.length + (if r.2.setIter.rangeIters = [] then 0 else 1) ∧ stepsIn cs ≤ 4 ∧ comparesIn cs ≤ 1 ∧
      ((∀ m, r.1 ≠ .panic m) → asksIn cs + r.2.setIter.rangeIters.length =
        2 * it.setIter.rangeIters.length + (if r.2.setIter.rangeIters = [] then 0 else 1)) := by
  obtain ⟨c0, x, h0, hn⟩ := path_nth h
  clear h
  obtain ⟨l1, l2, l3⟩ := BoundedSetIter.path_sumLens h0
  rcases hn with ⟨m, rfl, rfl, rfl⟩ | ⟨b, c1, c2, o, s', rfl, h1, rfl, hn⟩
  · exact ⟨by dsimp only; omega, by omega, by omega, fun h => absurd rfl (h m)⟩
  · have l3 := l3 b rfl
    obtain ⟨w1, w2, w3, -⟩ := BoundedSetIter.path_work h1
    simp only [Move.steps] at w1 w2
    rcases hn with ⟨rfl, hr, -, -⟩ | ⟨-, k, q, -, h2, rfl⟩
    · rw [hr, List.append_nil, asksIn_append, stepsIn_append, comparesIn_append]
      exact ⟨by dsimp only; omega, by omega, by omega, fun _ => by dsimp only; omega⟩
    · obtain ⟨v1, v2, v3⟩ := LowerBoundedRangeIter.path_work h2
      simp only [Move.steps] at v2
      rw [asksIn_append, stepsIn_append, comparesIn_append, asksIn_append, stepsIn_append, comparesIn_append, v1]
      exact ⟨by dsimp only; omega, by omega, by omega, fun _ => by dsimp only; omega⟩

theorem path_safe (C : A.Climbs p) (P : A.Promises p) {it : LowerBoundedSetIter T} (hs : it.Sorted) {m : Move}
    (hm : m.arg < p.usizeCount) {cs : List (StepCall T)} {r : Res (Option T) × LowerBoundedSetIter T}
    (h : Path A (it.moveC p m) cs r) : SafeMove Left Sorted it m.isFront r := by
  cases m with
  | next =>
    obtain ⟨c1, c2, o, s', h1, rfl, ⟨-, rfl, rfl⟩ | ⟨rfl, q, h2, rfl⟩⟩ := path_next h
    · exact safe_set hs (BoundedSetIter.path_safe C hs.1 hm h1)
    · obtain rfl := BoundedSetIter.path_none P rfl hm h1 rfl
      exact safe_range (LowerBoundedRangeIter.path_safe C hm h2)
  | nth n =>
    obtain ⟨c0, x, h0, ⟨m, rfl, rfl, rfl⟩ | ⟨b, c1, c2, o, s', rfl, h1, rfl, hn⟩⟩ := path_nth h
    · exact ⟨hs, fun _ h => h, by simp, by simp, by simp⟩
    · have hsafe := BoundedSetIter.path_safe C hs.1 hm h1
      rcases hn with ⟨-, hr, ho, -⟩ | ⟨rfl, k, q, hk, h2, rfl⟩
      · obtain ⟨o', it'⟩ := r
        dsimp only at hr ho
        subst hr
        rcases ho with rfl | ⟨rfl, m, rfl⟩
        · exact safe_set hs hsafe
        · exact safe_set hs ⟨hsafe.inv, hsafe.left, by simp, by simp, by simp⟩
      · obtain rfl := BoundedSetIter.path_none P rfl hm h1 rfl
        refine safe_range (LowerBoundedRangeIter.path_safe C (m := .nth k) ?_ h2)
        simp only [Move.arg] at hm ⊢
        rcases subUsize_le hk with h | h <;> omega
  | nextBack => obtain ⟨-, rfl⟩ := path_done.1 h; exact ⟨hs, fun _ h => h, by simp, by simp, by simp⟩
  | nthBack n => obtain ⟨-, rfl⟩ := path_done.1 h; exact ⟨hs, fun _ h => h, by simp, by simp, by simp⟩

end LowerBoundedSetIter

/-! ### `into_iter` -/

omit [LinearOrder T] in
theorem LowerBound.path_first {b : LowerBound T} {cs : List (StepCall T)} {r : Res T} (h : Path A b.firstC cs r) :
    (∃ t, b.b = .excluded t ∧ A.forward t 1 r ∧ cs = [.forward t 1]) ∨ ∃ t, b.b = .included t ∧ r = .ok t ∧ cs = [] := by
  rcases b with ⟨t | t⟩
  · obtain ⟨o, cs', h1, h2, rfl⟩ := path_forward.1 h
    obtain ⟨rfl, rfl⟩ := path_done.1 h2
    exact Or.inl ⟨t, rfl, h1, rfl⟩
  · obtain ⟨rfl, rfl⟩ := path_done.1 h
    exact Or.inr ⟨t, rfl, rfl, rfl⟩

omit [LinearOrder T] in
theorem UpperBound.path_last {b : UpperBound T} {cs : List (StepCall T)} {r : Res T} (h : Path A b.lastC cs r) :
    (∃ t, b.b = .excluded t ∧ A.backward t 1 r ∧ cs = [.backward t 1]) ∨ ∃ t, b.b = .included t ∧ r = .ok t ∧ cs = [] := by
  rcases b with ⟨t | t⟩
  · obtain ⟨o, cs', h1, h2, rfl⟩ := path_backward.1 h
    obtain ⟨rfl, rfl⟩ := path_done.1 h2
    exact Or.inl ⟨t, rfl, h1, rfl⟩
  · obtain ⟨rfl, rfl⟩ := path_done.1 h
    exact Or.inr ⟨t, rfl, rfl, rfl⟩

omit [LinearOrder T] in
theorem BoundedRange.path_intoIter {r : BoundedRange T} {cs : List (StepCall T)} {x : Res (BoundedRangeIter T)}
    (h : Path A r.intoIterC cs x) : asksIn cs = 0 ∧ ∀ it, x = .ok it → stepsIn cs = r.openEnds := by
  rw [intoIterC, path_bind] at h
  obtain ⟨y, c1, c2, h1, h2, rfl⟩ := h
  have f : asksIn c1 = 0 ∧ stepsIn c1 = match r.start.b with | .excluded _ => 1 | .included _ => 0 := by
    rcases LowerBound.path_first h1 with ⟨t, e, -, rfl⟩ | ⟨t, e, -, rfl⟩ <;> rw [e] <;> simp
  cases y with
  | panic m =>
    obtain ⟨rfl, rfl⟩ := path_done.1 h2
    exact ⟨by simpa using f.1, by simp⟩
  | ok c =>
    obtain ⟨z, c3, c4, h3, h4, rfl⟩ := path_bind.1 h2
    have g : asksIn c3 = 0 ∧ stepsIn c3 = match r.stop.b with | .excluded _ => 1 | .included _ => 0 := by
      rcases UpperBound.path_last h3 with ⟨t, e, -, rfl⟩ | ⟨t, e, -, rfl⟩ <;> rw [e] <;> simp
    cases z with
    | panic m =>
      obtain ⟨rfl, rfl⟩ := path_done.1 h4
      exact ⟨by rw [List.append_nil, asksIn_append, f.1, g.1], by simp⟩
    | ok d =>
      obtain ⟨rfl, rfl⟩ := path_done.1 h4
      exact ⟨by rw [List.append_nil, asksIn_append, f.1, g.1], fun _ _ => by
        rw [List.append_nil, stepsIn_append, f.2, g.2]; rfl⟩

omit [LinearOrder T] in
theorem path_intoIters {rs : List (BoundedRange T)} {cs : List (StepCall T)} {x : Res (List (BoundedRangeIter T))}
    (h : Path A (intoItersC rs) cs x) :
    asksIn cs = 0 ∧ ∀ its, x = .ok its → stepsIn cs = (rs.map BoundedRange.openEnds).sum := by
  induction rs generalizing cs x with
  | nil =>
    obtain ⟨rfl, rfl⟩ := path_done.1 h
    simp
  | cons r rs ih =>
    rw [intoItersC, path_bind] at h
    obtain ⟨y, c1, c2, h1, h2, rfl⟩ := h
    have f := r.path_intoIter h1
    cases y with
    | panic m =>
      obtain ⟨rfl, rfl⟩ := path_done.1 h2
      exact ⟨by simpa using f.1, by simp⟩
    | ok c =>
      obtain ⟨z, c3, c4, h3, h4, rfl⟩ := path_bind.1 h2
      have g := ih h3
      cases z with
      | panic m =>
        obtain ⟨rfl, rfl⟩ := path_done.1 h4
        exact ⟨by rw [List.append_nil, asksIn_append, f.1, g.1], by simp⟩
      | ok d =>
        obtain ⟨rfl, rfl⟩ := path_done.1 h4
        exact ⟨by rw [List.append_nil, asksIn_append, f.1, g.1], fun _ _ => by
          rw [List.append_nil, stepsIn_append, f.2 _ rfl, g.2 _ rfl, List.map_cons, List.sum_cons]⟩

omit [LinearOrder T] in
theorem BoundedSet.path_intoIters {s : BoundedSet T} {cs : List (StepCall T)} {x : Res (BoundedSetIter T)}
    (h : Path A s.intoIterC cs x) : ∃ y, Path A (intoItersC s.ranges) cs y ∧ ∀ it, x = .ok it → y = .ok it.rangeIters := by
  rw [intoIterC, path_bind] at h
  obtain ⟨y, c1, c2, h1, h2, rfl⟩ := h
  cases y with
  | panic m =>
    obtain ⟨rfl, rfl⟩ := path_done.1 h2
    exact ⟨_, by rw [List.append_nil]; exact h1, by simp⟩
  | ok c =>
    obtain ⟨rfl, rfl⟩ := path_done.1 h2
    exact ⟨_, by rw [List.append_nil]; exact h1, fun it e => by cases e; rfl⟩

omit [LinearOrder T] in
theorem BoundedSet.path_intoIter {s : BoundedSet T} {cs : List (StepCall T)} {x : Res (BoundedSetIter T)}
    (h : Path A s.intoIterC cs x) :
    asksIn cs = 0 ∧ ∀ it, x = .ok it → stepsIn cs = (s.ranges.map BoundedRange.openEnds).sum := by
  obtain ⟨y, hy, e⟩ := BoundedSet.path_intoIters h
  obtain ⟨h1, h2⟩ := Rangetools.path_intoIters hy
  exact ⟨h1, fun it hx => h2 _ (e it hx)⟩

omit [LinearOrder T] in
theorem LowerBoundedRange.path_intoIter {r : LowerBoundedRange T} {cs : List (StepCall T)}
    {x : Res (LowerBoundedRangeIter T)} (h : Path A r.intoIterC cs x) :
    asksIn cs = 0 ∧ ∀ it, x = .ok it → stepsIn cs = r.openEnds := by
  rw [intoIterC, path_bind] at h
  obtain ⟨y, c1, c2, h1, h2, rfl⟩ := h
  have f : asksIn c1 = 0 ∧ stepsIn c1 = r.openEnds := by
    unfold openEnds
    rcases LowerBound.path_first h1 with ⟨t, e, -, rfl⟩ | ⟨t, e, -, rfl⟩ <;> rw [e] <;> simp
  cases y with
  | panic m =>
    obtain ⟨rfl, rfl⟩ := path_done.1 h2
    exact ⟨by simpa using f.1, by simp⟩
  | ok c =>
    obtain ⟨rfl, rfl⟩ := path_done.1 h2
    exact ⟨by simpa using f.1, fun _ _ => by simpa using f.2⟩

omit [LinearOrder T] in
theorem LowerBoundedSet.path_intoIters {s : LowerBoundedSet T} {cs : List (StepCall T)} {x : Res (LowerBoundedSetIter T)}
    (h : Path A s.intoIterC cs x) :
    ∃ y c1, Path A s.ranges.intoIterC c1 y ∧ ((∃ m m', y = .panic m ∧ x = .panic m' ∧ cs = c1) ∨
      ∃ si z c2, y = .ok si ∧ Path A s.lowerBoundedRange.intoIterC c2 z ∧ cs = c1 ++ c2 ∧
        ∀ it, x = .ok it → it.setIter = si ∧ z = .ok it.rangeIter) := by
  rw [intoIterC, path_bind] at h
  obtain ⟨y, c1, c2, h1, h2, rfl⟩ := h
  refine ⟨y, c1, h1, ?_⟩
  cases y with
  | panic m =>
    obtain ⟨rfl, rfl⟩ := path_done.1 h2
    exact Or.inl ⟨m, m, rfl, rfl, by simp⟩
  | ok si =>
    obtain ⟨z, c3, c4, h3, h4, rfl⟩ := path_bind.1 h2
    refine Or.inr ⟨si, z, c3, rfl, h3, ?_⟩
    cases z with
    | panic m =>
      obtain ⟨rfl, rfl⟩ := path_done.1 h4
      exact ⟨by simp, by simp⟩
    | ok ri =>
      obtain ⟨rfl, rfl⟩ := path_done.1 h4
      exact ⟨by simp, fun it e => by cases e; exact ⟨rfl, rfl⟩⟩

omit [LinearOrder T] in
theorem LowerBoundedSet.path_intoIter {s : LowerBoundedSet T} {cs : List (StepCall T)} {x : Res (LowerBoundedSetIter T)}
    (h : Path A s.intoIterC cs x) :
    asksIn cs = 0 ∧ ∀ it, x = .ok it →
      stepsIn cs = (s.ranges.ranges.map BoundedRange.openEnds).sum + s.lowerBoundedRange.openEnds := by
  obtain ⟨y, c1, h1, ⟨m, m', rfl, rfl, rfl⟩ | ⟨si, z, c2, rfl, h2, rfl, e⟩⟩ := LowerBoundedSet.path_intoIters h
  · exact ⟨(BoundedSet.path_intoIter h1).1, by simp⟩
  · obtain ⟨f1, f2⟩ := BoundedSet.path_intoIter h1
    obtain ⟨g1, g2⟩ := LowerBoundedRange.path_intoIter h2
    exact ⟨by rw [asksIn_append, f1, g1], fun it hx => by rw [stepsIn_append, f2 _ rfl, g2 _ (e it hx).2]⟩

/-- All that is left at the start is in the range. -/
theorem BoundedRange.path_left (C : A.Climbs p) {r : BoundedRange T} {cs : List (StepCall T)} {it : BoundedRangeIter T}
    (h : Path A r.intoIterC cs (.ok it)) {t : T} (ht : it.Left t) : r.contains t = true := by
  rw [intoIterC, path_bind] at h
  obtain ⟨y, c1, c2, h1, h2, rfl⟩ := h
  cases y with
  | panic m => obtain ⟨-, e⟩ := path_done.1 h2; cases e
  | ok c =>
    obtain ⟨z, c3, c4, h3, h4, rfl⟩ := path_bind.1 h2
    cases z with
    | panic m => obtain ⟨-, e⟩ := path_done.1 h4; cases e
    | ok d =>
      obtain ⟨-, e⟩ := path_done.1 h4
      cases e
      obtain ⟨l1, l2⟩ := ht
      dsimp only at l1 l2
      simp only [contains, Bool.and_eq_true]
      constructor
      · rcases LowerBound.path_first h1 with ⟨a, e, hf, -⟩ | ⟨a, e, hf, -⟩ <;> rw [e] <;>
          simp only [decide_eq_true_eq]
        · exact lt_of_lt_of_le (C.forward_lt _ _ hf) l1
        · cases hf; exact l1
      · rcases UpperBound.path_last h3 with ⟨a, e, hf, -⟩ | ⟨a, e, hf, -⟩ <;> rw [e] <;>
          simp only [decide_eq_true_eq]
        · exact lt_of_le_of_lt l2 (C.backward_lt _ _ hf)
        · cases hf; exact l2

theorem LowerBoundedRange.path_left (C : A.Climbs p) {r : LowerBoundedRange T} {cs : List (StepCall T)}
    {it : LowerBoundedRangeIter T} (h : Path A r.intoIterC cs (.ok it)) {t : T} (ht : it.Left t) :
    r.contains t = true := by
  rw [intoIterC, path_bind] at h
  obtain ⟨y, c1, c2, h1, h2, rfl⟩ := h
  cases y with
  | panic m => obtain ⟨-, e⟩ := path_done.1 h2; cases e
  | ok c =>
    obtain ⟨-, e⟩ := path_done.1 h2
    cases e
    change c ≤ t at ht
    simp only [contains]
    rcases LowerBound.path_first h1 with ⟨a, e, hf, -⟩ | ⟨a, e, hf, -⟩ <;> rw [e] <;> simp only [decide_eq_true_eq]
    · exact lt_of_lt_of_le (C.forward_lt _ _ hf) ht
    · cases hf; exact ht

theorem path_intoIters_left (C : A.Climbs p) {rs : List (BoundedRange T)} {cs : List (StepCall T)}
    {its : List (BoundedRangeIter T)} (h : Path A (intoItersC rs) cs (.ok its)) :
    List.Forall₂ (fun r i => ∀ t, i.Left t → r.contains t = true) rs its := by
  induction rs generalizing cs its with
  | nil =>
    obtain ⟨-, e⟩ := path_done.1 h
    cases e
    exact .nil
  | cons r rs ih =>
    rw [intoItersC, path_bind] at h
    obtain ⟨y, c1, c2, h1, h2, rfl⟩ := h
    cases y with
    | panic m => obtain ⟨-, e⟩ := path_done.1 h2; cases e
    | ok c =>
      obtain ⟨z, c3, c4, h3, h4, rfl⟩ := path_bind.1 h2
      cases z with
      | panic m => obtain ⟨-, e⟩ := path_done.1 h4; cases e
      | ok d =>
        obtain ⟨-, e⟩ := path_done.1 h4
        cases e
        exact .cons (fun t ht => r.path_left C h1 ht) (ih h3)

end Rangetools
