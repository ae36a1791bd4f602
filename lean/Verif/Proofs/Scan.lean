import Verif.Spec.Scan
import Mathlib.Data.List.Perm.Subperm

/-!
# The search of `Spec/Scan` finds everything
-/

namespace Rangetools
namespace Formula

/-! ### Parts -/

theorem self_mem_parts (e : Formula) : e ∈ e.parts := by cases e <;> simp [parts]

theorem parts_trans {e p q : Formula} (hp : p ∈ e.parts) (hq : q ∈ p.parts) : q ∈ e.parts := by
  induction e with
  | var n => rw [parts, List.mem_singleton] at hp; subst hp; exact hq
  | union e f ihe ihf | inter e f ihe ihf =>
    simp only [parts, List.mem_cons, List.mem_append] at hp ⊢
    rcases hp with rfl | hp | hp
    · simpa [parts] using hq
    · exact .inr (.inl (ihe hp))
    · exact .inr (.inr (ihf hp))
  | complement e ih =>
    simp only [parts, List.mem_cons] at hp ⊢
    rcases hp with rfl | hp
    · simpa [parts] using hq
    · exact .inr (ih hp)

theorem var_mem_parts {e : Formula} {n : Nat} (h : var n ∈ e.parts) : n < e.vars := by
  induction e with
  | var m => simp only [parts, List.mem_singleton, var.injEq] at h; rw [h]; exact Nat.lt_succ_self m
  | union e f ihe ihf | inter e f ihe ihf =>
    simp only [parts, List.mem_cons, List.mem_append, reduceCtorEq, false_or] at h
    rcases h with h | h
    · exact (ihe h).trans_le (Nat.le_max_left _ _)
    · exact (ihf h).trans_le (Nat.le_max_right _ _)
  | complement e ih =>
    simp only [parts, List.mem_cons, reduceCtorEq, false_or] at h
    exact ih h

theorem atCut_congr {down up : Nat → Bool} {m m' : Memory} {v v' : Nat → Germ} (e : Formula)
    (hm : ∀ p ∈ e.parts, m p = m' p) (hv : ∀ n, var n ∈ e.parts → v n = v' n) :
    e.atCut down up m v = e.atCut down up m' v' := by
  induction e with
  | var n => exact hv n (self_mem_parts _)
  | union e f ihe ihf =>
    simp only [atCut]
    rw [ihe (fun p hp => hm p (by simp [parts, hp])) (fun n hn => hv n (by simp [parts, hn])),
      ihf (fun p hp => hm p (by simp [parts, hp])) (fun n hn => hv n (by simp [parts, hn]))]
  | inter e f ihe ihf =>
    simp only [atCut]
    rw [ihe (fun p hp => hm p (by simp [parts, hp])) (fun n hn => hv n (by simp [parts, hn])),
      ihf (fun p hp => hm p (by simp [parts, hp])) (fun n hn => hv n (by simp [parts, hn])),
      hm e (by simp [parts, self_mem_parts]), hm f (by simp [parts, self_mem_parts])]
  | complement e ih =>
    simp only [atCut]
    rw [ih (fun p hp => hm p (by simp [parts, hp])) (fun n hn => hv n (by simp [parts, hn]))]

theorem look_map {l : List Formula} {m : Memory} {e : Formula} (h : e ∈ l) : look l (l.map m) e = m e := by
  unfold look
  induction l with
  | nil => cases h
  | cons a l ih =>
    simp only [List.map_cons, List.zip_cons_cons, List.lookup_cons]
    by_cases ha : e = a
    · subst ha; simp
    · have : (e == a) = false := by simpa using ha
      rw [this]
      exact ih ((List.mem_cons.mp h).resolve_left ha)

/-! ### Choices -/

theorem mem_follow {b : Bool} {g : Germ} : g ∈ follow b ↔ g.right = b := by
  cases b <;> cases g <;> decide

theorem mem_picks {o : Nat → List Germ} {k : Nat} {xs : List Germ} :
    xs ∈ picks o k ↔ xs.length = k ∧ ∀ n < k, xs.getD n .nothing ∈ o n := by
  induction k generalizing xs with
  | zero => simp [picks, List.length_eq_zero_iff]
  | succ k ih =>
    simp only [picks, List.mem_flatMap, List.mem_map, ih]
    constructor
    · rintro ⟨ys, ⟨hl, hy⟩, x, hx, rfl⟩
      refine ⟨by simp [hl], fun n hn => ?_⟩
      rcases Nat.lt_succ_iff_lt_or_eq.mp hn with h | rfl
      · have := hy n h
        rw [List.getD_eq_getElem?_getD] at this ⊢
        rwa [List.getElem?_append_left (by omega)]
      · rw [List.getD_eq_getElem?_getD]
        simpa [← hl] using hx
    · rintro ⟨hl, hx⟩
      have hne : xs ≠ [] := by rintro rfl; cases hl
      refine ⟨xs.dropLast, ⟨by simp [hl], fun n hn => ?_⟩, xs.getLast hne, ?_, List.dropLast_append_getLast hne⟩
      · have := hx n (by omega)
        rw [List.getD_eq_getElem?_getD] at this ⊢
        rwa [List.getElem?_dropLast, if_pos (by omega)]
      · have := hx k (by omega)
        rw [List.getD_eq_getElem?_getD] at this
        rw [List.getLast_eq_getElem]
        simpa [hl] using this

/-! ### Closing a list under a function -/

section Closure
variable {α : Type} [BEq α] [LawfulBEq α]

theorem mem_addNew {l xs : List α} {x : α} : x ∈ addNew l xs ↔ x ∈ l ∨ x ∈ xs := by
  induction xs generalizing l with
  | nil => simp [addNew]
  | cons y ys ih =>
    rw [addNew, ih]
    by_cases h : l.contains y = true
    · rw [if_pos h, List.mem_cons]
      have hy : y ∈ l := by simpa using h
      constructor
      · rintro (h | h) <;> tauto
      · rintro (h | rfl | h) <;> tauto
    · rw [if_neg h]; simp only [List.mem_append, List.mem_cons]; tauto

theorem nodup_addNew {l : List α} (xs : List α) (h : l.Nodup) : (addNew l xs).Nodup := by
  induction xs generalizing l with
  | nil => exact h
  | cons y ys ih =>
    rw [addNew]
    apply ih
    by_cases hy : l.contains y = true
    · rwa [if_pos hy]
    · rw [if_neg hy]
      have : y ∉ l := by simpa using hy
      rw [List.nodup_append]
      refine ⟨h, by simp, ?_⟩
      intro a ha b hb
      rw [List.mem_singleton] at hb
      rintro rfl
      exact this (hb ▸ ha)

theorem addNew_length {l : List α} (xs : List α) :
    l.length ≤ (addNew l xs).length ∧ ((addNew l xs).length = l.length → ∀ x ∈ xs, x ∈ l) := by
  induction xs generalizing l with
  | nil => exact ⟨le_rfl, by simp⟩
  | cons y ys ih =>
    rw [addNew]
    by_cases hy : l.contains y = true
    · rw [if_pos hy]
      refine ⟨ih.1, fun h x hx => ?_⟩
      rcases List.mem_cons.mp hx with rfl | hx
      · simpa using hy
      · exact ih.2 h x hx
    · rw [if_neg hy]
      have h := (ih (l := l ++ [y])).1
      simp only [List.length_append, List.length_cons, List.length_nil] at h
      exact ⟨by omega, fun h' => by omega⟩

theorem closure_sub (next : α → List α) (n : Nat) (l : List α) (x : α) (hx : x ∈ l) : x ∈ closure next n l := by
  induction n generalizing l with
  | zero => exact hx
  | succ n ih =>
    rw [closure]
    split
    · exact hx
    · exact ih _ (mem_addNew.mpr (.inl hx))

theorem closure_closed (next : α → List α) (U : List α) (hU : ∀ x ∈ U, ∀ y ∈ next x, y ∈ U) (n : Nat) (l : List α)
    (hn : l.Nodup) (hl : ∀ x ∈ l, x ∈ U) (hk : U.length ≤ n + l.length) :
    ∀ x ∈ closure next n l, ∀ y ∈ next x, y ∈ closure next n l := by
  induction n generalizing l with
  | zero =>
    intro x hx y hy
    have hs : l.Subperm U := List.subperm_of_subset hn hl
    have hp : l.Perm U := hs.perm_of_length_le (by omega)
    rw [closure] at hx ⊢
    exact hp.mem_iff.mpr (hU x (hl x hx) y hy)
  | succ n ih =>
    rw [closure]
    have hlen := addNew_length (l := l) (l.flatMap next)
    split
    · rename_i h
      exact fun x hx y hy => hlen.2 h y (List.mem_flatMap.mpr ⟨x, hx, hy⟩)
    · rename_i h
      refine ih _ (nodup_addNew _ hn) (fun x hx => ?_) (by omega)
      rcases mem_addNew.mp hx with hx | hx
      · exact hl x hx
      · obtain ⟨z, hz, hx⟩ := List.mem_flatMap.mp hx
        exact hU z (hl z hz) x hx

theorem closure_ind (next : α → List α) (P : α → Prop) (hP : ∀ x, P x → ∀ y ∈ next x, P y) (n : Nat) (l : List α)
    (hl : ∀ x ∈ l, P x) : ∀ x ∈ closure next n l, P x := by
  induction n generalizing l with
  | zero => exact hl
  | succ n ih =>
    rw [closure]
    split
    · exact hl
    · refine ih _ fun x hx => ?_
      rcases mem_addNew.mp hx with hx | hx
      · exact hl x hx
      · obtain ⟨z, hz, hx⟩ := List.mem_flatMap.mp hx
        exact hP z (hl z hz) x hx

end Closure

theorem length_choices {α : Type} (l : List α) (n : Nat) : (choices l n).length = l.length ^ n := by
  induction n with
  | zero => rfl
  | succ n ih =>
    have h : ∀ L : List (List α), (L.flatMap fun xs => l.map (· :: xs)).length = L.length * l.length := by
      intro L
      induction L with
      | nil => simp
      | cons a L ihL => rw [List.flatMap_cons, List.length_append, ihL, List.length_map, List.length_cons, Nat.succ_mul, Nat.add_comm]
    rw [choices, h, ih, Nat.pow_succ]

/-! ### The search -/

section Search
variable {down up : Nat → Bool} {e f : Formula}

theorem parts_closed {p q : Formula} (hp : p ∈ e.parts ++ f.parts) (hq : q ∈ p.parts) : q ∈ e.parts ++ f.parts := by
  rw [List.mem_append] at hp ⊢
  exact hp.imp (fun h => parts_trans h hq) fun h => parts_trans h hq

theorem var_lt {n : Nat} (h : var n ∈ e.parts ++ f.parts) : n < max e.vars f.vars := by
  rcases List.mem_append.mp h with h | h
  · exact (var_mem_parts h).trans_le (Nat.le_max_left _ _)
  · exact (var_mem_parts h).trans_le (Nat.le_max_right _ _)

theorem atCut_look (m : Memory) {v v' : Nat → Germ} {p : Formula} (hp : p ∈ e.parts ++ f.parts)
    (hv : ∀ n, var n ∈ e.parts ++ f.parts → v n = v' n) :
    p.atCut down up (look (e.parts ++ f.parts) ((e.parts ++ f.parts).map m)) v = p.atCut down up m v' :=
  atCut_congr p (fun _ hq => look_map (parts_closed hp hq)) fun n hn => hv n (parts_closed hp hn)

theorem belowCut_look (m : Memory) {v v' : Nat → Germ} (hv : ∀ n, var n ∈ e.parts ++ f.parts → v n = v' n) :
    (e.parts ++ f.parts).map
        (belowCut down up (look (e.parts ++ f.parts) ((e.parts ++ f.parts).map m)) v) =
      (e.parts ++ f.parts).map (belowCut down up m v') :=
  List.map_congr_left fun p hp => by simp only [belowCut, atCut_look m hp hv, look_map hp]

/-- The choices at a cut, of variables that occur. -/
theorem cuts_of (m : Memory) {v : Nat → Germ} (hv : ∀ n < max e.vars f.vars, (v n).right = (m (var n)).1) :
    ∃ xs ∈ cuts (max e.vars f.vars) (look (e.parts ++ f.parts) ((e.parts ++ f.parts).map m)),
      ∀ n, var n ∈ e.parts ++ f.parts → xs.getD n .nothing = v n := by
  classical
  refine ⟨(List.range (max e.vars f.vars)).map fun n =>
    if (look (e.parts ++ f.parts) ((e.parts ++ f.parts).map m) (var n)).1 = (v n).right then v n else
      if (look (e.parts ++ f.parts) ((e.parts ++ f.parts).map m) (var n)).1 then .after else .nothing,
    mem_picks.mpr ⟨by simp, fun n hn => ?_⟩, fun n hn => ?_⟩
  · rw [getD_range' hn, mem_follow]
    split
    · rename_i h; exact h.symm
    · split
      · rename_i h; rw [h]; rfl
      · rename_i h; rw [Bool.not_eq_true] at h; rw [h]; rfl
  · rw [getD_range' (var_lt hn), look_map hn, if_pos (hv n (var_lt hn)).symm]
where
  getD_range' {v : Nat → Germ} {k n : Nat} (h : n < k) : ((List.range k).map v).getD n .nothing = v n := by
    simp [List.getD, h]

theorem of_cuts (m : Memory) {xs : List Germ}
    (h : xs ∈ cuts (max e.vars f.vars) (look (e.parts ++ f.parts) ((e.parts ++ f.parts).map m))) :
    ∃ v : Nat → Germ, (∀ n < max e.vars f.vars, (v n).right = (m (var n)).1) ∧
      ∀ n, var n ∈ e.parts ++ f.parts → xs.getD n .nothing = v n := by
  classical
  refine ⟨fun n => if var n ∈ e.parts ++ f.parts then xs.getD n .nothing else
    if (m (var n)).1 then .after else .nothing, fun n hn => ?_, fun n hn => ?_⟩
  · by_cases hv : var n ∈ e.parts ++ f.parts
    · simp only [if_pos hv]
      have := (mem_picks.mp h).2 n hn
      rwa [mem_follow, look_map hv] at this
    · simp only [if_neg hv]
      cases (m (var n)).1 <;> rfl
  · simp only [if_pos hn]

theorem mem_search {w : List (Bool × Bool)} : w ∈ search e f down up ↔
    ∃ m, Scanned (max e.vars f.vars) down up m ∧ w = (e.parts ++ f.parts).map m := by
  simp only [search]
  constructor
  · refine closure_ind _ (fun w => ∃ m, Scanned (max e.vars f.vars) down up m ∧ w = (e.parts ++ f.parts).map m) ?_ _ _
      ?_ w
    · rintro w ⟨m, hm, rfl⟩ y hy
      obtain ⟨xs, hxs, rfl⟩ := List.mem_map.mp hy
      obtain ⟨v, hv, he⟩ := of_cuts m hxs
      exact ⟨_, .step hm hv, belowCut_look m he⟩
    · intro x hx
      rw [List.mem_singleton] at hx
      exact ⟨_, .start, hx⟩
  · rintro ⟨m, hm, rfl⟩
    induction hm with
    | start => exact closure_sub _ _ _ _ (List.mem_singleton.mpr rfl)
    | step hm hv ih =>
      rename_i m v
      refine closure_closed _ (choices [(false, false), (false, true), (true, false), (true, true)]
        (e.parts ++ f.parts).length) ?_ _ _ (by simp) ?_ ?_ _ ih _ ?_
      · intro x _ y hy
        obtain ⟨xs, _, rfl⟩ := List.mem_map.mp hy
        exact mem_choices'.mpr ⟨by simp, fun ⟨a, b⟩ _ => by cases a <;> cases b <;> decide⟩
      · intro x hx
        rw [List.mem_singleton] at hx
        subst hx
        exact mem_choices'.mpr ⟨by simp, fun ⟨a, b⟩ _ => by cases a <;> cases b <;> decide⟩
      · rw [length_choices]; exact Nat.le_add_right _ _
      · obtain ⟨xs, hxs, he⟩ := cuts_of m hv
        exact List.mem_map.mpr ⟨xs, hxs, belowCut_look m he⟩
where
  mem_choices' {α : Type} {l : List α} {n : Nat} {xs : List α} :
      xs ∈ choices l n ↔ xs.length = n ∧ ∀ x ∈ xs, x ∈ l := by
    induction n generalizing xs with
    | zero =>
      simp only [choices, List.mem_singleton]
      constructor
      · rintro rfl; simp
      · exact fun h => List.length_eq_zero_iff.mp h.1
    | succ n ih =>
      simp only [choices, List.mem_flatMap, List.mem_map, ih]
      constructor
      · rintro ⟨ys, ⟨h1, h2⟩, y, hy, rfl⟩
        exact ⟨by simp [h1], by simpa [hy] using h2⟩
      · rintro ⟨h1, h2⟩
        cases xs with
        | nil => cases h1
        | cons y ys =>
          exact ⟨ys, ⟨by simpa using h1, fun x hx => h2 x (by simp [hx])⟩, y, h2 y (by simp), rfl⟩

theorem sameValuesFor_iff : sameValuesFor e f down up = true ↔
    ∀ m, Scanned (max e.vars f.vars) down up m → ∀ v : Nat → Germ,
      (∀ n < max e.vars f.vars, (v n).right = (m (var n)).1) → e.atCut down up m v = f.atCut down up m v := by
  have he : e ∈ e.parts ++ f.parts := List.mem_append_left _ e.self_mem_parts
  have hf : f ∈ e.parts ++ f.parts := List.mem_append_right _ f.self_mem_parts
  simp only [sameValuesFor, List.all_eq_true, beq_iff_eq, mem_search]
  constructor
  · intro h m hm v hv
    obtain ⟨xs, hxs, hx⟩ := cuts_of m hv
    have := h _ ⟨m, hm, rfl⟩ xs hxs
    rwa [atCut_look m he hx, atCut_look m hf hx] at this
  · rintro h _ ⟨m, hm, rfl⟩ xs hxs
    obtain ⟨v, hv, hx⟩ := of_cuts m hxs
    rw [atCut_look m he hx, atCut_look m hf hx]
    exact h m hm v hv

theorem sameMembersFor_iff : sameMembersFor e f down up = true ↔
    ∀ m, Scanned (max e.vars f.vars) down up m → (m e).1 = (m f).1 := by
  have he : e ∈ e.parts ++ f.parts := List.mem_append_left _ e.self_mem_parts
  have hf : f ∈ e.parts ++ f.parts := List.mem_append_right _ f.self_mem_parts
  simp only [sameMembersFor, List.all_eq_true, beq_iff_eq, mem_search]
  constructor
  · intro h m hm
    have := h _ ⟨m, hm, rfl⟩
    rwa [look_map he, look_map hf] at this
  · rintro h _ ⟨m, hm, rfl⟩
    rw [look_map he, look_map hf]
    exact h m hm

end Search

end Formula
end Rangetools
