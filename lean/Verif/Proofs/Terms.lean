import Verif.Spec.Terms
import Verif.Proofs.Scan

/-!
# The search of `Spec/Terms` finds everything
-/

namespace Rangetools
namespace Core

/-! ### Parts -/

theorem self_mem_parts (e : Core) : e ∈ e.parts := by cases e <;> simp [parts]

theorem parts_trans {e p q : Core} (hp : p ∈ e.parts) (hq : q ∈ p.parts) : q ∈ e.parts := by
  induction e with
  | const b => rw [parts, List.mem_singleton] at hp; subst hp; exact hq
  | var n => rw [parts, List.mem_singleton] at hp; subst hp; exact hq
  | union e f ihe ihf | inter e f ihe ihf | lossy e f ihe ihf =>
    simp only [parts, List.mem_cons, List.mem_append] at hp ⊢
    rcases hp with rfl | hp | hp
    · simpa [parts] using hq
    · exact .inr (.inl (ihe hp))
    · exact .inr (.inr (ihf hp))
  | complement e ih =>
    simp only [parts, List.mem_cons] at hp ⊢
    rcases hp with rfl | hp
    · simpa [parts] using hq
    · exact .inr (ih hp)

theorem atCut_congr {m m' : Memory} {v v' : Nat → Germ} (e : Core) (hm : ∀ p ∈ e.parts, m p = m' p)
    (hv : ∀ n, var n ∈ e.parts → v n = v' n) : e.atCut m v = e.atCut m' v' := by
  induction e with
  | const b => rfl
  | var n => exact hv n (self_mem_parts _)
  | union e f ihe ihf | inter e f ihe ihf =>
    simp only [atCut]
    rw [ihe (fun p hp => hm p (by simp [parts, hp])) (fun n hn => hv n (by simp [parts, hn])),
      ihf (fun p hp => hm p (by simp [parts, hp])) (fun n hn => hv n (by simp [parts, hn]))]
  | lossy e f ihe ihf =>
    simp only [atCut]
    rw [ihe (fun p hp => hm p (by simp [parts, hp])) (fun n hn => hv n (by simp [parts, hn])),
      ihf (fun p hp => hm p (by simp [parts, hp])) (fun n hn => hv n (by simp [parts, hn])),
      hm e (by simp [parts, self_mem_parts]), hm f (by simp [parts, self_mem_parts])]
  | complement e ih =>
    simp only [atCut]
    rw [ih (fun p hp => hm p (by simp [parts, hp])) (fun n hn => hv n (by simp [parts, hn]))]

theorem look_map {l : List Core} {m : Memory} {e : Core} (h : e ∈ l) : look l (l.map m) e = m e := by
  unfold look
  induction l with
  | nil => cases h
  | cons a l ih =>
    simp only [List.map_cons, List.zip_cons_cons, List.lookup_cons]
    by_cases ha : e = a
    · subst ha; simp
    · have : (e == a) = false := by simpa using ha
      rw [this]
      exact ih ((List.mem_cons.mp h).resolve_left ha)

theorem mem_allParts {l : List Core} {p : Core} : p ∈ allParts l ↔ ∃ e ∈ l, p ∈ e.parts := by
  rw [allParts, Formula.mem_addNew, List.mem_flatMap]
  simp

/-- A value that is allowed. -/
def _root_.Rangetools.Line.stay (l : Line) (b : Bool) : Germ :=
  match l with
  | .unused => .nothing
  | .set _ _ | .rising => if b then .after else .nothing
  | .falling => if b then .everything else .nothing

theorem _root_.Rangetools.Line.stay_mem (l : Line) (b : Bool) : l.stay b ∈ l.moves b := by
  cases l <;> cases b <;> simp [Line.stay, Line.moves, Formula.follow]

/-! ### The search -/

section Search
variable {l : List Core} {k : Nat} {ℓ : Nat → Line}

theorem atCut_look (hl : ∀ p ∈ l, ∀ q ∈ p.parts, q ∈ l) (m : Memory) {v v' : Nat → Germ} {p : Core} (hp : p ∈ l)
    (hv : ∀ n, var n ∈ l → v n = v' n) : p.atCut (look l (l.map m)) v = p.atCut m v' :=
  atCut_congr p (fun _ hq => look_map (hl p hp _ hq)) fun n hn => hv n (hl p hp _ hn)

theorem belowCut_look (hl : ∀ p ∈ l, ∀ q ∈ p.parts, q ∈ l) (m : Memory) {v v' : Nat → Germ}
    (hv : ∀ n, var n ∈ l → v n = v' n) : l.map (belowCut (look l (l.map m)) v) = l.map (belowCut m v') :=
  List.map_congr_left fun p hp => by simp only [belowCut, atCut_look hl m hp hv, look_map hp]

theorem getD_range' {v : Nat → Germ} {k n : Nat} (h : n < k) : ((List.range k).map v).getD n .nothing = v n := by
  simp [List.getD, h]

/-- The choices at a cut, of variables that occur. -/
theorem cuts_of (hk : ∀ n, var n ∈ l → n < k) (m : Memory) {v : Nat → Germ}
    (hv : ∀ n < k, v n ∈ (ℓ n).moves (m (var n)).1) :
    ∃ xs ∈ cuts k ℓ (look l (l.map m)), ∀ n, var n ∈ l → xs.getD n .nothing = v n := by
  classical
  refine ⟨(List.range k).map fun n =>
    if var n ∈ l then v n else (ℓ n).stay (look l (l.map m) (var n)).1,
    Formula.mem_picks.mpr ⟨by simp, fun n hn => ?_⟩, fun n hn => ?_⟩
  · rw [getD_range' hn]
    split
    · rename_i h
      rw [look_map h]
      exact hv n hn
    · exact Line.stay_mem _ _
  · rw [getD_range' (hk n hn), if_pos hn]

theorem of_cuts (m : Memory) {xs : List Germ} (h : xs ∈ cuts k ℓ (look l (l.map m))) :
    ∃ v : Nat → Germ, (∀ n < k, v n ∈ (ℓ n).moves (m (var n)).1) ∧ ∀ n, var n ∈ l → xs.getD n .nothing = v n := by
  classical
  refine ⟨fun n => if var n ∈ l then xs.getD n .nothing else (ℓ n).stay (m (var n)).1, fun n hn => ?_, fun n hn => ?_⟩
  · by_cases hv : var n ∈ l
    · simp only [if_pos hv]
      have := (Formula.mem_picks.mp h).2 n hn
      rwa [look_map hv] at this
    · simp only [if_neg hv]
      exact Line.stay_mem _ _
  · simp only [if_pos hn]

theorem mem_search (hl : ∀ p ∈ l, ∀ q ∈ p.parts, q ∈ l) (hk : ∀ n, var n ∈ l → n < k) {w : List (Bool × Bool)} :
    w ∈ search l k ℓ ↔ ∃ m, Scanned k ℓ m ∧ w = l.map m := by
  simp only [search]
  constructor
  · refine Formula.closure_ind _ (fun w => ∃ m, Scanned k ℓ m ∧ w = l.map m) ?_ _ _ ?_ w
    · rintro w ⟨m, hm, rfl⟩ y hy
      obtain ⟨xs, hxs, rfl⟩ := List.mem_map.mp hy
      obtain ⟨v, hv, he⟩ := of_cuts m hxs
      exact ⟨_, .step hm hv, belowCut_look hl m he⟩
    · intro x hx
      rw [List.mem_singleton] at hx
      exact ⟨_, .start, hx⟩
  · rintro ⟨m, hm, rfl⟩
    induction hm with
    | start => exact Formula.closure_sub _ _ _ _ (List.mem_singleton.mpr rfl)
    | step hm hv ih =>
      rename_i m v
      refine Formula.closure_closed _ (Formula.choices [(false, false), (false, true), (true, false), (true, true)]
        l.length) ?_ _ _ (by simp) ?_ ?_ _ ih _ ?_
      · intro x _ y hy
        obtain ⟨xs, _, rfl⟩ := List.mem_map.mp hy
        exact Formula.mem_search.mem_choices'.mpr ⟨by simp, fun ⟨a, b⟩ _ => by cases a <;> cases b <;> decide⟩
      · intro x hx
        rw [List.mem_singleton] at hx
        subst hx
        exact Formula.mem_search.mem_choices'.mpr ⟨by simp, fun ⟨a, b⟩ _ => by cases a <;> cases b <;> decide⟩
      · rw [Formula.length_choices]; exact Nat.le_add_right _ _
      · obtain ⟨xs, hxs, he⟩ := cuts_of hk m hv
        exact List.mem_map.mpr ⟨xs, hxs, belowCut_look hl m he⟩

end Search

/-- The variables are those below `k`. -/
def Below (k : Nat) (e : Core) : Prop := ∀ n, var n ∈ e.parts → n < k

theorem below_union {k : Nat} {e f : Core} : (union e f).Below k ↔ e.Below k ∧ f.Below k := by
  simp only [Below, parts, List.mem_cons, List.mem_append, reduceCtorEq, false_or]
  exact ⟨fun h => ⟨fun n hn => h n (.inl hn), fun n hn => h n (.inr hn)⟩, fun h n hn => hn.elim (h.1 n) (h.2 n)⟩

theorem below_inter {k : Nat} {e f : Core} : (inter e f).Below k ↔ e.Below k ∧ f.Below k := by
  simp only [Below, parts, List.mem_cons, List.mem_append, reduceCtorEq, false_or]
  exact ⟨fun h => ⟨fun n hn => h n (.inl hn), fun n hn => h n (.inr hn)⟩, fun h n hn => hn.elim (h.1 n) (h.2 n)⟩

theorem below_lossy {k : Nat} {e f : Core} : (lossy e f).Below k ↔ e.Below k ∧ f.Below k := by
  simp only [Below, parts, List.mem_cons, List.mem_append, reduceCtorEq, false_or]
  exact ⟨fun h => ⟨fun n hn => h n (.inl hn), fun n hn => h n (.inr hn)⟩, fun h n hn => hn.elim (h.1 n) (h.2 n)⟩

theorem below_complement {k : Nat} {e : Core} : (complement e).Below k ↔ e.Below k := by
  simp only [Below, parts, List.mem_cons, reduceCtorEq, false_or]

theorem below_var {k n : Nat} : (var n).Below k ↔ n < k := by
  simp [Below, parts]

theorem below_const {k : Nat} {b : Bool} : (const b).Below k := by
  simp [Below, parts]

theorem below_meet {k : Nat} {a b : Core} (ha : a.Below k) (hb : b.Below k) : (meet a b).Below k := by
  unfold meet
  split
  · exact ha
  · split
    · exact hb
    · split
      · exact ha
      · exact below_inter.mpr ⟨ha, hb⟩

theorem below_apart {k : Nat} {a b : Core} (ha : a.Below k) (hb : b.Below k) : (apart a b).Below k := by
  unfold apart
  split
  · exact below_complement.mpr ha
  · split
    · exact below_complement.mpr hb
    · split
      · exact below_complement.mpr ha
      · exact below_union.mpr ⟨below_complement.mpr ha, below_complement.mpr hb⟩

end Core

namespace Term
open Core

theorem below_core (κ : Nat → Option Shape) {k : Nat} (e : Term) (h : e.vars ≤ k) :
    (e.core κ).1.Below (2 * k) ∧ (e.core κ).2.Below (2 * k) := by
  induction e with
  | var n =>
    have h : n + 1 ≤ k := h
    unfold core
    split
    · exact ⟨below_const, below_const⟩
    · split
      · exact ⟨below_var.mpr (by omega), below_var.mpr (by omega)⟩
      · constructor
        · dsimp only
          split
          · exact below_var.mpr (by omega)
          · exact below_const
        · dsimp only
          split
          · exact below_var.mpr (by omega)
          · exact below_const
  | toInner e ih => exact ih h
  | toSet e ih =>
    have ih := ih h
    exact ⟨below_meet ih.1 ih.2, below_meet ih.1 ih.2⟩
  | union e f ihe ihf =>
    have ihe := ihe ((Nat.le_max_left _ _).trans h)
    have ihf := ihf ((Nat.le_max_right _ _).trans h)
    simp only [core]
    split
    · exact ihf
    · exact ihe
    · have := below_union.mpr ⟨below_meet ihe.1 ihe.2, below_meet ihf.1 ihf.2⟩
      exact ⟨this, this⟩
  | inter e f ihe ihf =>
    have ihe := ihe ((Nat.le_max_left _ _).trans h)
    have ihf := ihf ((Nat.le_max_right _ _).trans h)
    simp only [core]
    split
    · have := below_lossy.mpr ⟨below_meet ihe.1 ihe.2, below_meet ihf.1 ihf.2⟩
      exact ⟨this, this⟩
    · split
      · have := below_meet (below_meet ihe.1 ihe.2) (below_meet ihf.1 ihf.2)
        exact ⟨this, this⟩
      · exact ⟨below_meet ihe.1 ihf.1, below_meet ihe.2 ihf.2⟩
  | complement e ih =>
    have ih := ih h
    have := below_apart ih.1 ih.2
    simp only [core]
    split
    · exact ⟨this, below_const⟩
    · exact ⟨below_const, this⟩
    · exact ⟨this, this⟩

theorem below_inside (κ : Nat → Option Shape) {k : Nat} (e : Term) (h : e.vars ≤ k) : (e.inside κ).Below (2 * k) :=
  below_meet (below_core κ e h).1 (below_core κ e h).2

theorem allParts_closed {l : List Core} : ∀ p ∈ allParts l, ∀ q ∈ p.parts, q ∈ allParts l := by
  intro p hp q hq
  obtain ⟨e, he, hp⟩ := mem_allParts.mp hp
  exact mem_allParts.mpr ⟨e, he, parts_trans hp hq⟩

theorem self_mem_allParts {l : List Core} {e : Core} (h : e ∈ l) : e ∈ allParts l :=
  mem_allParts.mpr ⟨e, h, e.self_mem_parts⟩

theorem allParts_below {l : List Core} {k : Nat} (h : ∀ e ∈ l, e.Below k) : ∀ n, Core.var n ∈ allParts l → n < k := by
  intro n hn
  obtain ⟨e, he, hp⟩ := mem_allParts.mp hn
  exact h e he n hp

theorem sameValues_iff {κ : Nat → Option Shape} {e f : Term} : sameValues κ e f = true ↔
    e.shape κ = f.shape κ ∧ ∀ m, Scanned (2 * max e.vars f.vars) (Shape.line κ) m → ∀ v : Nat → Germ,
      (∀ n < 2 * max e.vars f.vars, v n ∈ (Shape.line κ n).moves (m (.var n)).1) →
        (e.core κ).1.atCut m v = (f.core κ).1.atCut m v ∧ (e.core κ).2.atCut m v = (f.core κ).2.atCut m v := by
  have be := below_core κ e (Nat.le_max_left e.vars f.vars)
  have bf := below_core κ f (Nat.le_max_right e.vars f.vars)
  have hk := allParts_below (l := [(e.core κ).1, (e.core κ).2, (f.core κ).1, (f.core κ).2])
    (k := 2 * max e.vars f.vars) (by simp [be.1, be.2, bf.1, bf.2])
  have a1 := self_mem_allParts (l := [(e.core κ).1, (e.core κ).2, (f.core κ).1, (f.core κ).2]) (e := (e.core κ).1) (by simp)
  have a2 := self_mem_allParts (l := [(e.core κ).1, (e.core κ).2, (f.core κ).1, (f.core κ).2]) (e := (e.core κ).2) (by simp)
  have b1 := self_mem_allParts (l := [(e.core κ).1, (e.core κ).2, (f.core κ).1, (f.core κ).2]) (e := (f.core κ).1) (by simp)
  have b2 := self_mem_allParts (l := [(e.core κ).1, (e.core κ).2, (f.core κ).1, (f.core κ).2]) (e := (f.core κ).2) (by simp)
  simp only [sameValues, Bool.and_eq_true, List.all_eq_true, beq_iff_eq, mem_search allParts_closed hk]
  refine and_congr_right fun _ => ⟨?_, ?_⟩
  · intro h m hm v hv
    obtain ⟨xs, hxs, hx⟩ := cuts_of hk m hv
    have := h _ ⟨m, hm, rfl⟩ xs hxs
    rwa [atCut_look allParts_closed m a1 hx, atCut_look allParts_closed m a2 hx, atCut_look allParts_closed m b1 hx,
      atCut_look allParts_closed m b2 hx] at this
  · rintro h _ ⟨m, hm, rfl⟩ xs hxs
    obtain ⟨v, hv, hx⟩ := of_cuts m hxs
    rw [atCut_look allParts_closed m a1 hx, atCut_look allParts_closed m a2 hx, atCut_look allParts_closed m b1 hx,
      atCut_look allParts_closed m b2 hx]
    exact h m hm v hv

theorem sameMembers_iff {κ : Nat → Option Shape} {e f : Term} : sameMembers κ e f = true ↔
    ∀ m, Scanned (2 * max e.vars f.vars) (Shape.line κ) m → (m (e.inside κ)).1 = (m (f.inside κ)).1 := by
  have hk := allParts_below (l := [e.inside κ, f.inside κ]) (k := 2 * max e.vars f.vars)
    (by simp [below_inside κ e (Nat.le_max_left e.vars f.vars), below_inside κ f (Nat.le_max_right e.vars f.vars)])
  have a1 := self_mem_allParts (l := [e.inside κ, f.inside κ]) (e := e.inside κ) (by simp)
  have b1 := self_mem_allParts (l := [e.inside κ, f.inside κ]) (e := f.inside κ) (by simp)
  simp only [sameMembers, List.all_eq_true, beq_iff_eq, mem_search allParts_closed hk]
  constructor
  · intro h m hm
    have := h _ ⟨m, hm, rfl⟩
    rwa [look_map a1, look_map b1] at this
  · rintro h _ ⟨m, hm, rfl⟩
    rw [look_map a1, look_map b1]
    exact h m hm

end Term
end Rangetools
