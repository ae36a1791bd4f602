import Verif.Spec.Trees
import Verif.Props.Lattice

/-!
# C69: how a union is bracketed and ordered does not matter
-/

namespace Rangetools
open Iv Samples
variable {T : Type} [LinearOrder T]

/-- Add a list of values one after the other. -/
def unionAll (acc : Any T) (l : List (Any T)) : Res (Any T) := l.foldlM (fun a b => a.union b) acc

theorem unionAll_cons {acc a c : Any T} (h : acc.union a = .ok c) (l : List (Any T)) :
    unionAll acc (a :: l) = unionAll c l := by
  rw [unionAll, List.foldlM_cons, h]; rfl

theorem Any.union_normal {a b : Any T} (ha : a.toInner.Normal) (hb : b.toInner.Normal) :
    ∃ c, a.union b = .ok c ∧ c.toInner.Normal := by
  obtain ⟨c, hc, -, hw, -⟩ := Any.union_comp a b
  exact ⟨c, hc, (Inner.normal_iff _).mpr (hw ((Inner.normal_iff _).mp ha) ((Inner.normal_iff _).mp hb))⟩

theorem unionAll_ok {acc : Any T} {l : List (Any T)} (ha : acc.toInner.Normal) (hl : ∀ a ∈ l, a.toInner.Normal) :
    ∃ c, unionAll acc l = .ok c ∧ c.toInner.Normal := by
  induction l generalizing acc with
  | nil => exact ⟨acc, rfl, ha⟩
  | cons a l ih =>
    obtain ⟨c, hc, hn⟩ := Any.union_normal ha (hl a List.mem_cons_self)
    rw [unionAll_cons hc]
    exact ih hn fun b hb => hl b (List.mem_cons_of_mem _ hb)

theorem unionAll_append {acc c : Any T} {l : List (Any T)} (h : unionAll acc l = .ok c) (m : List (Any T)) :
    unionAll acc (l ++ m) = unionAll c m := by
  induction l generalizing acc with
  | nil => obtain rfl : acc = c := by injection h
           rfl
  | cons a l ih =>
    obtain ⟨d, hd, -⟩ := Any.union_comp acc a
    rw [unionAll_cons hd] at h
    rw [List.cons_append, unionAll_cons hd, ih h]

theorem unionAll_perm {l l' : List (Any T)} (h : l.Perm l') {acc : Any T} (ha : acc.toInner.Normal)
    (hl : ∀ a ∈ l, a.toInner.Normal) : unionAll acc l = unionAll acc l' := by
  induction h generalizing acc with
  | nil => rfl
  | cons a h ih =>
    obtain ⟨c, hc, nc⟩ := Any.union_normal ha (hl a List.mem_cons_self)
    rw [unionAll_cons hc, unionAll_cons hc]
    exact ih nc fun b hb => hl b (List.mem_cons_of_mem _ hb)
  | swap a b l =>
    have na := hl a (by simp)
    have nb := hl b (by simp)
    obtain ⟨x, y, hx, hy, e, z, hz⟩ := C08_union_assoc acc b a ha nb na
    obtain ⟨x', y', hx', hy', e', -⟩ := C08_union_assoc acc a b ha na nb
    obtain rfl : y = y' := by rw [C07_union_comm b a nb na, hy'] at hy; injection hy with h; exact h.symm
    rw [unionAll_cons hx, unionAll_cons hx', unionAll_cons hz, unionAll_cons (e'.trans (e.symm.trans hz))]
  | trans h h' ih ih' => rw [ih ha hl, ih' ha fun a h'' => hl a (h.mem_iff.mpr h'')]

theorem leaves_normal {e : Expr T} (h : e.AllLeaves (fun a => a.toInner.Normal)) :
    ∀ a ∈ e.leaves, a.toInner.Normal := by
  induction e with
  | leaf a => intro b hb; rw [Expr.leaves, List.mem_singleton] at hb; rw [hb]; exact h
  | toInner e ih => exact ih h
  | toSet e ih => exact ih h
  | union e f ihe ihf => intro b hb; exact (List.mem_append.mp hb).elim (ihe h.1 b) (ihf h.2 b)
  | inter e f ihe ihf => intro b hb; exact (List.mem_append.mp hb).elim (ihe h.1 b) (ihf h.2 b)
  | complement e ih => exact ih h

theorem unionAll_tree {e : Expr T} (hu : e.Unions) (h : e.AllLeaves (fun a => a.toInner.Normal)) :
    ∃ c, e.eval = .ok c ∧ c.toInner.Normal ∧
      ∀ acc : Any T, acc.toInner.Normal → unionAll acc e.leaves = acc.union c := by
  induction e with
  | leaf a =>
    refine ⟨a, rfl, h, fun acc ha => ?_⟩
    obtain ⟨c, hc, -⟩ := Any.union_normal ha h
    rw [Expr.leaves, unionAll_cons hc, hc]; rfl
  | union e f ihe ihf =>
    obtain ⟨a, ea, na, ha⟩ := ihe hu.1 h.1
    obtain ⟨b, eb, nb, hb⟩ := ihf hu.2 h.2
    obtain ⟨c, hc, nc⟩ := Any.union_normal na nb
    refine ⟨c, by simp [Expr.eval, ea, eb, hc], nc, fun acc hacc => ?_⟩
    obtain ⟨x, hx, nx⟩ := Any.union_normal hacc na
    obtain ⟨x', y, hx', hy, e, -⟩ := C08_union_assoc acc a b hacc na nb
    obtain rfl : x = x' := by rw [hx] at hx'; injection hx'
    obtain rfl : c = y := by rw [hc] at hy; injection hy
    rw [Expr.leaves, unionAll_append ((ha acc hacc).trans hx), hb x nx, e]
  | _ => exact hu.elim

/-- A tree of unions has the value of adding its leaves to an `EmptyRange` one after the other. -/
theorem eval_unions {e : Expr T} (hu : e.Unions) (h : e.AllLeaves (fun a => a.toInner.Normal)) :
    e.eval = unionAll (.inner .er) e.leaves := by
  obtain ⟨c, hc, -, hacc⟩ := unionAll_tree hu h
  rw [hc, hacc (.inner .er) trivial]; rfl

/-- C69. Two trees of unions over the same leaves, in any order and with any bracketing, have the same
value. -/
theorem C69_union_trees (e f : Expr T) (he : e.Unions) (hf : f.Unions)
    (hn : e.AllLeaves (fun a => a.toInner.Normal)) (hm : f.AllLeaves (fun a => a.toInner.Normal))
    (hp : e.leaves.Perm f.leaves) : e.eval = f.eval ∧ ∃ c, e.eval = .ok c := by
  obtain ⟨c, hc, -⟩ := unionAll_tree he hn
  refine ⟨?_, c, hc⟩
  rw [eval_unions he hn, eval_unions hf hm]
  exact unionAll_perm hp trivial (leaves_normal hn)

/-! ### Repeated leaves -/

/-- The type of a union's set. -/
theorem Any.union_setKind {a b c : Any T} (ha : a.toInner.Normal) (hb : b.toInner.Normal) (h : a.union b = .ok c) :
    setKind c.toInner.kind = unionKind (setKind a.toInner.kind) (setKind b.toInner.kind) := by
  by_cases hea : a.isER = true
  · obtain rfl := Any.eq_of_isER hea
    rw [(C09_union_units b).2.1] at h
    obtain rfl : b = c := by injection h
    rfl
  by_cases heb : b.isER = true
  · obtain rfl := Any.eq_of_isER heb
    rw [(C09_union_units a).1] at h
    obtain rfl : a = c := by injection h
    change _ = unionKind _ .er
    cases a.toInner.kind <;> rfl
  obtain ⟨d, hd, -, -, hk⟩ := Any.union_spec ha hb (by simpa using hea) (by simpa using heb)
  obtain rfl : c = .inner d.toInner := by rw [h] at hd; injection hd
  rw [Any.toInner_inner, hk]
  cases a.toInner.kind <;> cases b.toInner.kind <;> rfl

theorem unionAll_sem {acc c : Any T} {l : List (Any T)} (ha : acc.toInner.Normal) (hl : ∀ a ∈ l, a.toInner.Normal)
    (h : unionAll acc l = .ok c) :
    (∀ q, q ∈ sem c.toInner.ivs ↔ q ∈ sem acc.toInner.ivs ∨ ∃ a ∈ l, q ∈ sem a.toInner.ivs) ∧
    ∀ k, unionKind (setKind c.toInner.kind) (setKind k) = setKind k ↔
      unionKind (setKind acc.toInner.kind) (setKind k) = setKind k ∧
        ∀ a ∈ l, unionKind (setKind a.toInner.kind) (setKind k) = setKind k := by
  induction l generalizing acc with
  | nil =>
    obtain rfl : acc = c := by injection h
    simp
  | cons a l ih =>
    have na := hl a List.mem_cons_self
    obtain ⟨d, hd, nd⟩ := Any.union_normal ha na
    rw [unionAll_cons hd] at h
    obtain ⟨h1, h2⟩ := ih nd (fun b hb => hl b (List.mem_cons_of_mem _ hb)) h
    obtain ⟨d', hd', hs, -⟩ := Any.union_comp acc a
    obtain rfl : d = d' := by rw [hd] at hd'; injection hd'
    refine ⟨fun q => ?_, fun k => ?_⟩
    · rw [h1, hs, Set.mem_union]
      simp only [List.mem_cons, exists_eq_or_imp]
      tauto
    · rw [h2, Any.union_setKind ha na hd]
      simp only [List.mem_cons, forall_eq_or_imp, ← and_assoc]
      refine and_congr_left fun _ => ?_
      generalize acc.toInner.kind = i
      generalize a.toInner.kind = j
      cases i <;> cases j <;> cases k <;> decide

omit [LinearOrder T] in
theorem SetVal.toInner_inj {a b : SetVal T} (h : a.toInner = b.toInner) : a = b := by
  cases a <;> cases b <;> simp_all [SetVal.toInner]

/-- C69. Repeating a leaf makes no difference either, once the result is turned into a set (a union of one
range is a range, with itself a set). -/
theorem C69_repeated_leaves (e f : Expr T) (he : e.Unions) (hf : f.Unions)
    (hn : e.AllLeaves (fun a => a.toInner.Normal)) (hm : f.AllLeaves (fun a => a.toInner.Normal))
    (hp : ∀ a, a ∈ e.leaves ↔ a ∈ f.leaves) :
    ∃ c d, e.eval = .ok c ∧ f.eval = .ok d ∧ c.toSet = d.toSet := by
  obtain ⟨c, hc, nc, -⟩ := unionAll_tree he hn
  obtain ⟨d, hd, nd, -⟩ := unionAll_tree hf hm
  refine ⟨c, d, hc, hd, SetVal.toInner_inj ?_⟩
  rw [eval_unions he hn] at hc
  rw [eval_unions hf hm] at hd
  obtain ⟨sc, kc⟩ := unionAll_sem (acc := .inner .er) trivial (leaves_normal hn) hc
  obtain ⟨sd, kd⟩ := unionAll_sem (acc := .inner .er) trivial (leaves_normal hm) hd
  have hk : setKind c.toInner.kind = setKind d.toInner.kind := by
    have refl : ∀ k, unionKind (setKind k) (setKind k) = setKind k := by intro k; cases k <;> rfl
    have key : ∀ k, unionKind (setKind c.toInner.kind) (setKind k) = setKind k ↔
        unionKind (setKind d.toInner.kind) (setKind k) = setKind k := by
      intro k; rw [kc, kd]; simp only [hp]
    have h1 := (key d.toInner.kind).mpr (refl _)
    have h2 := (key c.toInner.kind).mp (refl _)
    rw [unionKind_comm] at h2
    exact h2.symm.trans h1
  rw [Any.toSet_eq, Any.toSet_eq]
  refine Inner.eq_of_sem' ?_ ?_ (Inner.toSet_WF ((Inner.normal_iff _).mp nc))
    (Inner.toSet_WF ((Inner.normal_iff _).mp nd)) ?_
  · rw [Inner.toSet_kind, Inner.toSet_kind, hk]
  · rw [Inner.toSet_kind]; cases c.toInner.kind <;> rfl
  · rw [Inner.toSet_sem, Inner.toSet_sem]
    ext q
    rw [sc, sd]
    simp only [hp]

example : let a : Expr Int := .leaf (.range ⟨0, 5⟩)
    let b : Expr Int := .leaf (.inner us)
    let c : Expr Int := .leaf (.rangeFrom ⟨20⟩)
    (Expr.union (.union a b) c).Unions ∧ (Expr.union c (.union b a)).Unions ∧
      (Expr.union (.union a b) c).AllLeaves (fun a => a.toInner.Normal) ∧
      (Expr.union (.union a b) c).leaves.Perm (Expr.union c (.union b a)).leaves ∧
      (Expr.union (.union a b) c).eval =
        .ok (.inner (.us (.piecewise ⟨io (-20), ⟨[co 0 5]⟩, ci 20⟩))) := by
  refine ⟨⟨⟨trivial, trivial⟩, trivial⟩, ⟨trivial, trivial, trivial⟩, ⟨⟨trivial, show us.Normal by decide⟩, trivial⟩,
    ?_, by decide +kernel⟩
  decide

-- one leaf and the same leaf twice: a range and a set
example : (Any.range (⟨0, 5⟩ : Range Int)).union (.range ⟨0, 5⟩) = .ok (.inner (.bs ⟨[co 0 5]⟩)) := by decide +kernel

end Rangetools
