import Verif.Spec.Sentences
import Verif.Proofs.Terms
import Mathlib.Data.List.ProdSigma

/-!
# The search of `Spec/Sentences` finds everything
-/

namespace Rangetools
namespace Core

/-- Some of the elements not passed yet are passed. -/
def Marked (m : Memory) (p p' : Nat → Option Memory) : Prop := ∀ j, p' j = p j ∨ p j = none ∧ p' j = some m

/-- The elements passed now are above those not passed yet. -/
def above (r : Nat × Nat → Bool) (p : Nat → Option Memory) (q : Nat × Nat) : Bool := r q || (p q.2).isSome && (p q.1).isNone

/-- What can be remembered. -/
inductive Seen (k : Nat) (ℓ : Nat → Line) :
    Memory → (Core × Core → Bool) → (Nat → Option Memory) → (Nat × Nat → Bool) → Prop
  | start : Seen k ℓ (aboveAll ℓ) (fun _ => false) (fun _ => none) fun _ => false
  | step {m : Memory} {d : Core × Core → Bool} {p p' : Nat → Option Memory} {r : Nat × Nat → Bool} {v : Nat → Germ} :
      Seen k ℓ m d p r → (∀ n < k, v n ∈ (ℓ n).moves (m (var n)).1) → Marked m p p' →
      Seen k ℓ (belowCut m v) (fun q => d q || differ m v q) p' (above r p')

theorem known_map {α : Type} [BEq α] [LawfulBEq α] {Q : List α} {d : α → Bool} {q : α} (h : q ∈ Q) :
    known Q (Q.map d) q = d q := by
  unfold known
  induction Q with
  | nil => cases h
  | cons a l ih =>
    simp only [List.map_cons, List.zip_cons_cons, List.lookup_cons]
    by_cases ha : q = a
    · subst ha; simp
    · have : (q == a) = false := by simpa using ha
      rw [this]
      exact ih ((List.mem_cons.mp h).resolve_left ha)

section Search
variable {l : List Core} {Q : List (Core × Core)} {k : Nat} {ℓ : Nat → Line}

theorem differ_look (hl : ∀ p ∈ l, ∀ q ∈ p.parts, q ∈ l) (hQ : ∀ q ∈ Q, q.1 ∈ l ∧ q.2 ∈ l) (m : Memory) {v v' : Nat → Germ}
    (hv : ∀ n, var n ∈ l → v n = v' n) {q : Core × Core} (hq : q ∈ Q) : differ (look l (l.map m)) v q = differ m v' q := by
  rw [differ, differ, atCut_look hl m (hQ q hq).1 hv, atCut_look hl m (hQ q hq).2 hv]

theorem afterPairs_map (hl : ∀ p ∈ l, ∀ q ∈ p.parts, q ∈ l) (hQ : ∀ q ∈ Q, q.1 ∈ l ∧ q.2 ∈ l) (m : Memory)
    (d : Core × Core → Bool) {v v' : Nat → Germ} (hv : ∀ n, var n ∈ l → v n = v' n) :
    (l.map (belowCut (look l (l.map m)) v),
      Q.map fun q => known Q (Q.map d) q || differ (look l (l.map m)) v q) =
        (l.map (belowCut m v'), Q.map fun q => d q || differ m v' q) := by
  rw [belowCut_look hl m hv]
  congr 1
  exact List.map_congr_left fun q hq => by rw [known_map hq, differ_look hl hQ m hv hq]

theorem mem_afterPairs (hl : ∀ p ∈ l, ∀ q ∈ p.parts, q ∈ l) (hk : ∀ n, var n ∈ l → n < k) (hQ : ∀ q ∈ Q, q.1 ∈ l ∧ q.2 ∈ l)
    (m : Memory) (d : Core × Core → Bool) {y : List (Bool × Bool) × List Bool} :
    y ∈ afterPairs l Q k ℓ (l.map m, Q.map d) ↔ ∃ v : Nat → Germ, (∀ n < k, v n ∈ (ℓ n).moves (m (var n)).1) ∧
      y = (l.map (belowCut m v), Q.map fun q => d q || differ m v q) := by
  constructor
  · intro hy
    obtain ⟨xs, hxs, rfl⟩ := List.mem_map.mp hy
    obtain ⟨v, hv, he⟩ := of_cuts m hxs
    exact ⟨v, hv, afterPairs_map hl hQ m d he⟩
  · rintro ⟨v, hv, rfl⟩
    obtain ⟨xs, hxs, he⟩ := cuts_of hk m hv
    exact List.mem_map.mpr ⟨xs, hxs, afterPairs_map hl hQ m d he⟩

theorem mem_marks {α : Type} {w : Nat → α} {n : Nat} {s t : List (Option α)} :
    t ∈ marks w n s ↔
      t.length = s.length ∧ ∀ i : Nat, t[i]? = s[i]? ∨ s[i]? = some none ∧ t[i]? = some (some (w (n + i))) := by
  induction s generalizing n t with
  | nil =>
    simp only [marks, List.mem_singleton, List.length_nil, List.length_eq_zero_iff]
    exact ⟨fun h => ⟨h, fun i => .inl (by rw [h])⟩, fun h => h.1⟩
  | cons a s ih =>
    have key : ∀ b : Option α, (∃ t', t' ∈ marks w (n + 1) s ∧ b :: t' = t) ∧ (b = a ∨ a = none ∧ b = some (w n)) →
        t.length = (a :: s).length ∧
          ∀ i : Nat, t[i]? = (a :: s)[i]? ∨ (a :: s)[i]? = some none ∧ t[i]? = some (some (w (n + i))) := by
      rintro b ⟨⟨t', ht, rfl⟩, hb⟩
      obtain ⟨h1, h2⟩ := ih.mp ht
      refine ⟨by simp [h1], fun i => ?_⟩
      cases i with
      | zero => simpa using hb
      | succ i =>
        have := h2 i
        rw [show n + 1 + i = n + (i + 1) by omega] at this
        simpa using this
    have back : (t.length = (a :: s).length ∧
        ∀ i : Nat, t[i]? = (a :: s)[i]? ∨ (a :: s)[i]? = some none ∧ t[i]? = some (some (w (n + i)))) →
        ∃ b t', t' ∈ marks w (n + 1) s ∧ b :: t' = t ∧ (b = a ∨ a = none ∧ b = some (w n)) := by
      rintro ⟨h1, h2⟩
      cases t with
      | nil => simp at h1
      | cons b t' =>
        refine ⟨b, t', ih.mpr ⟨by simpa using h1, fun i => ?_⟩, rfl, by simpa using h2 0⟩
        rw [show n + 1 + i = n + (i + 1) by omega]
        simpa using h2 (i + 1)
    cases a with
    | none =>
      simp only [marks, List.mem_append, List.mem_map]
      constructor
      · rintro (h | h)
        · exact key none ⟨h, .inl rfl⟩
        · exact key (some (w n)) ⟨h, .inr ⟨rfl, rfl⟩⟩
      · intro h
        obtain ⟨b, t', h1, h2, rfl | ⟨-, rfl⟩⟩ := back h
        · exact .inl ⟨t', h1, h2⟩
        · exact .inr ⟨t', h1, h2⟩
    | some u =>
      simp only [marks, List.mem_map]
      constructor
      · exact fun h => key (some u) ⟨h, .inl rfl⟩
      · intro h
        obtain ⟨b, t', h1, h2, rfl | ⟨h, -⟩⟩ := back h
        · exact ⟨t', h1, h2⟩
        · cases h

/-- What is written down of the first elements. -/
def written (P : List (Nat × Core)) (J : Nat) (p : Nat → Option Memory) : List (Option (List Bool)) :=
  (List.range J).map fun j => (p j).map fun m => drawnThere P m j

theorem written_getElem? (P : List (Nat × Core)) (J : Nat) (p : Nat → Option Memory) (j : Nat) :
    (written P J p)[j]? = if j < J then some ((p j).map fun m => drawnThere P m j) else none := by
  by_cases h : j < J
  · simp [written, h]
  · simp [written, h]

theorem written_getD (P : List (Nat × Core)) {J : Nat} (p : Nat → Option Memory) {j : Nat} (h : j < J) :
    (written P J p).getD j none = (p j).map fun m => drawnThere P m j := by
  rw [List.getD_eq_getElem?_getD, written_getElem?, if_pos h]; rfl

theorem mem_marks_written {P : List (Nat × Core)} {J : Nat} {m : Memory} {p : Nat → Option Memory} {t : List (Option (List Bool))} :
    t ∈ marks (drawnThere P m) 0 (written P J p) ↔ ∃ p', Marked m p p' ∧ t = written P J p' := by
  rw [mem_marks]
  simp only [Nat.zero_add]
  constructor
  · rintro ⟨h1, h2⟩
    refine ⟨fun j => if t[j]? = some (some (drawnThere P m j)) ∧ p j = none then some m else p j, fun j => ?_, ?_⟩
    · by_cases h : t[j]? = some (some (drawnThere P m j)) ∧ p j = none
      · exact .inr ⟨h.2, if_pos h⟩
      · exact .inl (if_neg h)
    · refine List.ext_getElem? fun j => ?_
      have h2 := h2 j
      rw [written_getElem?] at h2 ⊢
      by_cases hj : j < J
      · rw [if_pos hj] at h2 ⊢
        by_cases h : t[j]? = some (some (drawnThere P m j)) ∧ p j = none
        · rw [if_pos h, h.1]; rfl
        · rw [if_neg h]
          rcases h2 with h2 | ⟨h3, h4⟩
          · exact h2
          · refine absurd ⟨h4, ?_⟩ h
            cases hp : p j with
            | none => rfl
            | some u => rw [hp] at h3; simp at h3
      · rw [if_neg hj] at h2 ⊢
        rcases h2 with h2 | ⟨h3, -⟩
        · exact h2
        · cases h3
  · rintro ⟨p', h, rfl⟩
    refine ⟨by simp [written], fun j => ?_⟩
    rw [written_getElem?, written_getElem?]
    by_cases hj : j < J
    · rw [if_pos hj, if_pos hj]
      rcases h j with h | ⟨h1, h2⟩
      · exact .inl (by rw [h])
      · exact .inr (by rw [h1, h2]; exact ⟨rfl, rfl⟩)
    · rw [if_neg hj, if_neg hj]; exact .inl rfl

/-- What is written down of all that is remembered. -/
def note (l : List Core) (Q : List (Core × Core)) (P : List (Nat × Core)) (J : Nat) (R : List (Nat × Nat)) (m : Memory)
    (d : Core × Core → Bool) (p : Nat → Option Memory) (r : Nat × Nat → Bool) : Note := ((l.map m, Q.map d), written P J p, R.map r)

section Notes
variable {P : List (Nat × Core)} {J : Nat} {R : List (Nat × Nat)}

theorem above_written {r : Nat × Nat → Bool} {p : Nat → Option Memory} (hR : ∀ q ∈ R, q.1 < J ∧ q.2 < J) :
    (R.map fun q => known R (R.map r) q || ((written P J p).getD q.2 none).isSome && ((written P J p).getD q.1 none).isNone) =
      R.map (above r p) :=
  List.map_congr_left fun q hq => by
    rw [known_map hq, written_getD P p (hR q hq).1, written_getD P p (hR q hq).2, Option.isSome_map, Option.isNone_map, above]

theorem drawnThere_look (hP : ∀ q ∈ P, q.2 ∈ l) (m : Memory) : drawnThere P (look l (l.map m)) = drawnThere P m :=
  funext fun _ => List.map_congr_left fun q hq => by rw [look_map (hP q hq)]

theorem mem_afterAll (hl : ∀ p ∈ l, ∀ q ∈ p.parts, q ∈ l) (hk : ∀ n, var n ∈ l → n < k) (hQ : ∀ q ∈ Q, q.1 ∈ l ∧ q.2 ∈ l)
    (hP : ∀ q ∈ P, q.2 ∈ l) (hR : ∀ q ∈ R, q.1 < J ∧ q.2 < J) (m : Memory) (d : Core × Core → Bool) (p : Nat → Option Memory) (r : Nat × Nat → Bool)
    {y : Note} :
    y ∈ afterAll l Q P R k ℓ (note l Q P J R m d p r) ↔ ∃ (v : Nat → Germ) (p' : Nat → Option Memory),
      (∀ n < k, v n ∈ (ℓ n).moves (m (var n)).1) ∧ Marked m p p' ∧
        y = note l Q P J R (belowCut m v) (fun q => d q || differ m v q) p' (above r p') := by
  simp only [afterAll, note, List.mem_flatMap, List.mem_map, drawnThere_look hP]
  constructor
  · rintro ⟨s, hs, z, hz, rfl⟩
    obtain ⟨p', hp, rfl⟩ := mem_marks_written.mp hs
    obtain ⟨v, hv, rfl⟩ := (mem_afterPairs hl hk hQ m d).mp hz
    exact ⟨v, p', hv, hp, by rw [above_written hR]⟩
  · rintro ⟨v, p', hv, hp, rfl⟩
    exact ⟨_, mem_marks_written.mpr ⟨p', hp, rfl⟩, _, (mem_afterPairs hl hk hQ m d).mpr ⟨v, hv, rfl⟩,
      by rw [above_written hR]⟩

/-- All that could be written down. -/
def allNotes (a b P J c : Nat) : List Note :=
  ((Formula.choices [(false, false), (false, true), (true, false), (true, true)] a) ×ˢ (Formula.choices [false, true] b)) ×ˢ
    ((Formula.choices (none :: (Formula.choices [false, true] P).map some) J) ×ˢ
      (Formula.choices [false, true] c))

theorem length_allNotes (a b P J c : Nat) : (allNotes a b P J c).length = 4 ^ a * 2 ^ b * ((2 ^ P + 1) ^ J * 2 ^ c) := by
  simp only [allNotes, List.length_product, Formula.length_choices, List.length_cons, List.length_map, List.length_nil]

theorem mem_allNotes {a b P J c : Nat} {x : Note} : x ∈ allNotes a b P J c ↔
    x.1.1.length = a ∧ x.1.2.length = b ∧ (x.2.1.length = J ∧ ∀ u, some u ∈ x.2.1 → u.length = P) ∧ x.2.2.length = c := by
  have h4 : ∀ (n : Nat) (l : List (Bool × Bool)),
      l ∈ Formula.choices [(false, false), (false, true), (true, false), (true, true)] n ↔ l.length = n := fun n l =>
    Formula.mem_search.mem_choices'.trans
      ⟨fun h => h.1, fun h => ⟨h, fun ⟨a, b⟩ _ => by cases a <;> cases b <;> decide⟩⟩
  have h2 : ∀ (n : Nat) (l : List Bool), l ∈ Formula.choices [false, true] n ↔ l.length = n := fun n l =>
    Formula.mem_search.mem_choices'.trans ⟨fun h => h.1, fun h => ⟨h, fun a _ => by cases a <;> decide⟩⟩
  obtain ⟨⟨w, f⟩, s, r⟩ := x
  simp only [allNotes, List.mem_product, h4, h2]
  rw [Formula.mem_search.mem_choices', and_assoc]
  refine and_congr_right fun _ => and_congr_right fun _ => and_congr_left fun _ => and_congr_right fun _ => ?_
  constructor
  · intro h u hu
    have := h _ hu
    simpa [h2] using this
  · intro h o ho
    cases o with
    | none => simp
    | some u => simpa [h2] using h u ho

theorem afterAll_sub {x y : Note} (hx : x ∈ allNotes l.length Q.length P.length J R.length) (hy : y ∈ afterAll l Q P R k ℓ x) :
    y ∈ allNotes l.length Q.length P.length J R.length := by
  rw [mem_allNotes] at hx ⊢
  simp only [afterAll, afterPairs, List.mem_flatMap, List.mem_map] at hy
  obtain ⟨s, hs, z, ⟨xs, -, rfl⟩, rfl⟩ := hy
  obtain ⟨h1, h2⟩ := mem_marks.mp hs
  refine ⟨by simp, by simp, ⟨h1.trans hx.2.2.1.1, fun u hu => ?_⟩, by simp⟩
  obtain ⟨i, hi⟩ := List.mem_iff_getElem?.mp hu
  rcases h2 i with h | ⟨-, h⟩
  · exact hx.2.2.1.2 u (List.mem_iff_getElem?.mpr ⟨i, h ▸ hi⟩)
  · rw [hi] at h
    injection h with h
    injection h with h
    rw [h]; simp [drawnThere]

theorem note_start : note l Q P J R (aboveAll ℓ) (fun _ => false) (fun _ => none) (fun _ => false) =
    ((l.map (aboveAll ℓ), Q.map fun _ => false), List.replicate J none, R.map fun _ => false) := by
  simp only [note, written, Option.map_none, List.map_const', List.length_range]

theorem mem_searchAll (hl : ∀ p ∈ l, ∀ q ∈ p.parts, q ∈ l) (hk : ∀ n, var n ∈ l → n < k)
    (hQ : ∀ q ∈ Q, q.1 ∈ l ∧ q.2 ∈ l) (hP : ∀ q ∈ P, q.2 ∈ l) (hR : ∀ q ∈ R, q.1 < J ∧ q.2 < J) {x : Note} :
    x ∈ searchAll l Q P J R k ℓ ↔ ∃ m d p r, Seen k ℓ m d p r ∧ x = note l Q P J R m d p r := by
  simp only [searchAll, ← note_start (P := P)]
  constructor
  · refine Formula.closure_ind _ (fun x => ∃ m d p r, Seen k ℓ m d p r ∧ x = note l Q P J R m d p r) ?_ _ _ ?_ x
    · rintro _ ⟨m, d, p, r, hm, rfl⟩ y hy
      obtain ⟨v, p', hv, hp, rfl⟩ := (mem_afterAll hl hk hQ hP hR m d p r).mp hy
      exact ⟨_, _, _, _, .step hm hv hp, rfl⟩
    · intro x hx
      rw [List.mem_singleton] at hx
      exact ⟨_, _, _, _, .start, hx⟩
  · rintro ⟨m, d, p, r, hm, rfl⟩
    induction hm with
    | start => exact Formula.closure_sub _ _ _ _ (List.mem_singleton.mpr rfl)
    | @step m d p p' r v hm hv hp ih =>
      refine Formula.closure_closed _ (allNotes l.length Q.length P.length J R.length) (fun x hx y hy => afterAll_sub hx hy) _ _ (by simp)
        ?_ ?_ _ ih _ ((mem_afterAll hl hk hQ hP hR m d p r).mpr ⟨v, p', hv, hp, rfl⟩)
      · intro x hx
        rw [List.mem_singleton] at hx
        subst hx
        rw [mem_allNotes]
        simp [note, written]
      · rw [length_allNotes]; exact Nat.le_add_right _ _

end Notes

theorem ended_iff {m : Memory} : ended k ℓ m = true ↔ ∀ n < k, (m (var n)).1 = (ℓ n).down := by
  simp [ended]

end Search
end Core

namespace Sentence
open Core

theorem truth_congr {κ : Nat → Option Shape} {d d' : Core × Core → Bool} {p p' : Nat × Core → Bool} {r r' : Nat × Nat → Bool}
    (s : Sentence) (h : ∀ q ∈ s.pairs κ, d q = d' q) (hp : ∀ q ∈ s.places κ, p q = p' q)
    (hr : ∀ q ∈ s.orders, r q = r' q) : s.truth κ d p r = s.truth κ d' p' r' := by
  induction s with
  | eq e f => simp only [truth]; rw [h _ (by simp [pairs]), h _ (by simp [pairs])]
  | isEmpty e => simp only [truth]; rw [h _ (by simp [pairs])]
  | mem j e => simp only [truth]; rw [hp _ (by simp [places])]
  | lt i j => simp only [truth]; rw [hr _ (by simp [orders])]
  | not s ih => simp only [truth]; rw [ih h hp hr]
  | and s t ihs iht =>
    simp only [truth]
    rw [ihs (fun q hq => h q (List.mem_append_left _ hq))
        (fun q hq => hp q (List.mem_append_left _ hq))
        fun q hq => hr q (List.mem_append_left _ hq),
      iht (fun q hq => h q (List.mem_append_right _ hq))
        (fun q hq => hp q (List.mem_append_right _ hq))
        fun q hq => hr q (List.mem_append_right _ hq)]

theorem lt_orders (s : Sentence) : ∀ q ∈ s.orders, q.1 < s.elems ∧ q.2 < s.elems := by
  induction s with
  | eq e f => intro q hq; cases hq
  | isEmpty e => intro q hq; cases hq
  | mem j e => intro q hq; cases hq
  | lt i j =>
    intro q hq
    rw [List.mem_singleton.mp hq]
    simp only [elems]
    omega
  | not s ih => exact ih
  | and s t ihs iht =>
    intro q hq
    simp only [elems]
    rcases List.mem_append.mp hq with hq | hq
    · have := ihs q hq; omega
    · have := iht q hq; omega

theorem below_places (κ : Nat → Option Shape) {k : Nat} (s : Sentence) (h : s.vars ≤ k) :
    ∀ q ∈ s.places κ, q.1 < s.elems ∧ q.2.Below (2 * k) := by
  induction s with
  | eq e f => intro q hq; cases hq
  | isEmpty e => intro q hq; cases hq
  | lt i j => intro q hq; cases hq
  | mem j e =>
    intro q hq
    rw [List.mem_singleton.mp hq]
    exact ⟨Nat.lt_succ_self j, Term.below_inside κ e h⟩
  | not s ih => exact ih h
  | and s t ihs iht =>
    intro q hq
    rcases List.mem_append.mp hq with hq | hq
    · have := ihs ((Nat.le_max_left _ _).trans h) q hq
      exact ⟨this.1.trans_le (Nat.le_max_left _ _), this.2⟩
    · have := iht ((Nat.le_max_right _ _).trans h) q hq
      exact ⟨this.1.trans_le (Nat.le_max_right _ _), this.2⟩

theorem below_pairs (κ : Nat → Option Shape) {k : Nat} (s : Sentence) (h : s.vars ≤ k) :
    ∀ q ∈ s.pairs κ, q.1.Below (2 * k) ∧ q.2.Below (2 * k) := by
  induction s with
  | eq e f =>
    have he := Term.below_core κ e ((Nat.le_max_left _ _).trans h)
    have hf := Term.below_core κ f ((Nat.le_max_right _ _).trans h)
    intro q hq
    simp only [pairs, List.mem_cons, List.not_mem_nil, or_false] at hq
    rcases hq with rfl | rfl
    · exact ⟨he.1, hf.1⟩
    · exact ⟨he.2, hf.2⟩
  | isEmpty e =>
    intro q hq
    simp only [pairs, List.mem_cons, List.not_mem_nil, or_false] at hq
    subst hq
    exact ⟨Term.below_inside κ e h, below_const⟩
  | mem j e => intro q hq; cases hq
  | lt i j => intro q hq; cases hq
  | not s ih => exact ih h
  | and s t ihs iht =>
    intro q hq
    rcases List.mem_append.mp hq with hq | hq
    · exact ihs ((Nat.le_max_left _ _).trans h) q hq
    · exact iht ((Nat.le_max_right _ _).trans h) q hq

theorem valid_iff {s : Sentence} {κ : Nat → Option Shape} : s.valid κ = true ↔
    ∀ m d p r, Seen (2 * s.vars) (Shape.line κ) m d p r → ∀ (v : Nat → Germ) (p' : Nat → Option Memory),
      (∀ n < 2 * s.vars, v n ∈ (Shape.line κ n).moves (m (.var n)).1) → Marked m p p' →
      (∀ n < 2 * s.vars, (v n).left = (Shape.line κ n).down) →
        s.truth κ (fun q => d q || differ m v q) (fun q => ((p' q.1).getD (belowCut m v) q.2).1) (above r p') = true := by
  have hQ' : ∀ q, q ∈ Formula.addNew [] (s.pairs κ) ↔ q ∈ s.pairs κ := fun q => by simp [Formula.mem_addNew]
  have hR' : ∀ q, q ∈ Formula.addNew [] s.orders ↔ q ∈ s.orders := fun q => by simp [Formula.mem_addNew]
  have hP' : ∀ c, c ∈ Formula.addNew [] (s.places κ) ↔ c ∈ s.places κ := fun c => by simp [Formula.mem_addNew]
  obtain ⟨l, hl⟩ : ∃ l, l = allParts ((List.range (2 * s.vars)).map .var ++
    (Formula.addNew [] (s.pairs κ)).flatMap (fun q => [q.1, q.2]) ++
      (Formula.addNew [] (s.places κ)).map Prod.snd) := ⟨_, rfl⟩
  have hcl : ∀ p ∈ l, ∀ q ∈ p.parts, q ∈ l := by rw [hl]; exact Term.allParts_closed
  have hvar : ∀ n < 2 * s.vars, Core.var n ∈ l := fun n hn => by rw [hl]; exact Term.self_mem_allParts (by simp [hn])
  have hP : ∀ q ∈ Formula.addNew [] (s.places κ), q.2 ∈ l := fun q hq => by
    rw [hl]; exact Term.self_mem_allParts (List.mem_append_right _ (List.mem_map.mpr ⟨q, hq, rfl⟩))
  have hQ : ∀ q ∈ Formula.addNew [] (s.pairs κ), q.1 ∈ l ∧ q.2 ∈ l := fun q hq => by
    rw [hl]
    exact ⟨Term.self_mem_allParts (List.mem_append_left _ (List.mem_append_right _ (List.mem_flatMap.mpr ⟨q, hq, by simp⟩))),
      Term.self_mem_allParts (List.mem_append_left _ (List.mem_append_right _ (List.mem_flatMap.mpr ⟨q, hq, by simp⟩)))⟩
  have hR : ∀ q ∈ Formula.addNew [] s.orders, q.1 < s.elems ∧ q.2 < s.elems := fun q hq => lt_orders s q ((hR' q).mp hq)
  have hk : ∀ n, Core.var n ∈ l → n < 2 * s.vars := by
    rw [hl]
    refine Term.allParts_below fun e he => ?_
    rcases List.mem_append.mp he with he | he
    · rcases List.mem_append.mp he with he | he
      · obtain ⟨n, hn, rfl⟩ := List.mem_map.mp he
        exact below_var.mpr (List.mem_range.mp hn)
      · obtain ⟨q, hq, he⟩ := List.mem_flatMap.mp he
        have := below_pairs κ s le_rfl q ((hQ' q).mp hq)
        simp only [List.mem_cons, List.not_mem_nil, or_false] at he
        rcases he with rfl | rfl
        · exact this.1
        · exact this.2
    · obtain ⟨q, hq, rfl⟩ := List.mem_map.mp he
      exact (below_places κ s le_rfl q ((hP' q).mp hq)).2
  have hend : ∀ (m : Memory) (v : Nat → Germ), ended (2 * s.vars) (Shape.line κ) (look l (l.map (belowCut m v))) = true ↔
      ∀ n < 2 * s.vars, (v n).left = (Shape.line κ n).down := fun m v => by
    rw [ended_iff]
    refine forall_congr' fun n => forall_congr' fun hn => ?_
    rw [look_map (hvar n hn)]
    exact Iff.rfl
  have htruth : ∀ (m : Memory) (v : Nat → Germ) (d : Core × Core → Bool) (p : Nat → Option Memory) (r : Nat × Nat → Bool),
      s.truth κ (known (Formula.addNew [] (s.pairs κ)) ((Formula.addNew [] (s.pairs κ)).map d))
        (fun q => known (Formula.addNew [] (s.places κ))
          (((written (Formula.addNew [] (s.places κ)) s.elems p).getD q.1 none).getD
            (drawnThere (Formula.addNew [] (s.places κ)) (look l (l.map m)) q.1)) q)
        (known (Formula.addNew [] s.orders) ((Formula.addNew [] s.orders).map r)) =
      s.truth κ d (fun q => ((p q.1).getD m q.2).1) r := fun m v d p r =>
    truth_congr s (fun q hq => known_map ((hQ' q).mpr hq)) (fun q hq => by
      have key : ∀ u : Memory, known (Formula.addNew [] (s.places κ)) (drawnThere (Formula.addNew [] (s.places κ)) u q.1) q =
          (u q.2).1 := fun u => by
        rw [drawnThere, known_map (d := fun q' => q'.1 == q.1 && (u q'.2).1) ((hP' q).mpr hq)]; simp
      rw [written_getD _ p (below_places κ s le_rfl q hq).1, drawnThere_look hP]
      cases p q.1 with
      | none => exact key m
      | some u => exact key u) fun q hq => known_map ((hR' q).mpr hq)
  simp only [valid, List.all_eq_true, ← hl]
  constructor
  · intro h m d p r hm v p' hv hp hd
    have := h _ ((mem_searchAll hcl hk hQ hP hR).mpr ⟨m, d, p, r, hm, rfl⟩) _
      ((mem_afterAll hcl hk hQ hP hR m d p r).mpr ⟨v, p', hv, hp, rfl⟩)
    simp only [note] at this
    rw [Bool.or_eq_true, Bool.not_eq_true', ← Bool.not_eq_true, hend, htruth _ v] at this
    exact this.resolve_left fun h => h hd
  · intro h x hx y hy
    obtain ⟨m, d, p, r, hm, rfl⟩ := (mem_searchAll hcl hk hQ hP hR).mp hx
    obtain ⟨v, p', hv, hp, rfl⟩ := (mem_afterAll hcl hk hQ hP hR m d p r).mp hy
    simp only [note]
    rw [Bool.or_eq_true, Bool.not_eq_true', ← Bool.not_eq_true, hend, htruth _ v]
    by_cases he : ∀ n < 2 * s.vars, (v n).left = (Shape.line κ n).down
    · exact .inr (h m d p r hm v p' hv hp he)
    · exact .inl he

end Sentence
end Rangetools
