import Verif.Proofs.SentencesLine

/-!
# C124: which sentences about expressions hold
-/

namespace Rangetools
open Iv
open Formula (IsCut Around SpotAgree before before_lt before_le)

variable {T : Type} [LinearOrder T]

/-! ### Emptiness -/

/-- Between two cuts there is a place. -/
theorem exists_probe [Nonempty T] {p : ECut T × ECut T} (h : p.1 < p.2) : ∃ q : Spot T, probe q ∈ sem1 p := by
  obtain ⟨t⟩ := ‹Nonempty T›
  obtain ⟨x, y⟩ := p
  simp only at h
  rcases x with _ | _ | ⟨a, s⟩
  · rcases y with _ | _ | ⟨a, s⟩
    · exact absurd h (lt_irrefl _)
    · exact ⟨spot t 0, probe_full _⟩
    · refine ⟨spot a 0, mem_sem1_iff.mpr ⟨above_bot _, ?_⟩⟩
      show cut a false ≤ cut a s
      rw [cut_le]
      cases s <;> simp
  · exact absurd h (not_lt.mpr (by rcases y with _ | y; exacts [bot_le, WithBot.coe_le_coe.mpr le_top]))
  · cases s with
    | false => exact ⟨spot a 2, mem_sem1_iff.mpr ⟨le_rfl, h⟩⟩
    | true => exact ⟨spot a 4, mem_sem1_iff.mpr ⟨le_rfl, h⟩⟩

/-- `is_empty` says that nothing is covered. -/
theorem Inner.isEmpty_iff_inside [Nonempty T] (i : Inner T) : i.isEmpty = true ↔ i.inside = ∅ := by
  constructor
  · intro h
    rw [Inner.isEmpty_iff_sem] at h
    ext p
    rw [Inner.mem_inside, h]
    exact Iff.rfl
  · intro h
    by_contra hn
    obtain ⟨p, hp, hlt⟩ := Inner.exists_piece (by simpa using hn)
    obtain ⟨q, hq⟩ := exists_probe hlt
    have : q ∈ i.inside := (i.mem_inside q).mpr ⟨p, hp, hq⟩
    rw [h] at this
    exact this

/-- Below all cuts the type says it all. -/
theorem Inner.inside_bottom {i : Inner T} (h : i.IsSet) {p : Spot T} (hc : ∀ c ∈ i.cutSpots, p < c) :
    p ∈ i.inside ↔ i.goesDown = true := by
  have : i.goesDown = true ↔ ¬ i.BoundedBelow := by
    cases i <;> first | exact h.elim | simp [Inner.BoundedBelow, Inner.goesDown]
  rw [this, stretches_below h, Inner.mem_inside_stretches h]
  push Not
  refine exists_congr fun s => and_congr_right fun hs => ⟨fun h' => ?_, fun h' => ⟨?_, fun l hl => hc _ (upper_mem hs hl)⟩⟩
  · cases hu : s.1 with
    | none => rfl
    | some u => exact absurd (h'.1 u hu) (hc _ (lower_mem hs hu)).not_gt
  · intro u hu
    rw [h'] at hu
    cases hu

theorem Term.Drawing.bottom {K : List (Spot T)} {l : Line} {A : Set (Spot T)} (h : Drawing K l A) {p : Spot T}
    (hc : ∀ c ∈ K, p < c) : p ∈ A ↔ l.down = true := by
  cases h with
  | unused => simp [Line.down]
  | set h h' => exact Inner.inside_bottom h fun c hc' => hc c (h' c hc')
  | @rising c h h' => exact ⟨fun h : c < p => absurd (hc c h') h.not_gt, fun h => by simp [Line.down] at h⟩
  | @falling c h h' => exact ⟨fun _ => rfl, fun _ => hc c h'⟩

/-! ### The line of given values -/

/-- The cuts of given values in order, and those before given elements. -/
theorem Term.exists_line (κ : Nat → Option Shape) (ι : Nat → Inner T) (hκ : ∀ n, (ι n).shape = κ n) (k : Nat) (τ : Nat → T)
    (J : Nat) : ∃ L b c a w, Core.Line (drawn κ ι) (2 * k) (fun n => (Shape.line κ n).up) L b c a w ∧
      Core.Chain (Shape.line κ) (2 * k) w (L + 1) ∧ (∀ n < 2 * k, (w L n).left = (Shape.line κ n).down) ∧
      (∀ i, IsCut (c i)) ∧ (∀ i j, i ≤ j → c j ≤ c i) ∧ ∀ j < J, ∃ i ≤ L, c i = spot (τ j) 1 := by
  let K : Finset (Spot T) := insert (spot (τ 0) 1) (allCuts ι k ++ (List.range J).map fun j => spot (τ j) 1).toFinset
  have hK : ∀ c, c ∈ allCuts ι k → c ∈ K := fun c hc =>
    Finset.mem_insert_of_mem (List.mem_toFinset.mpr (List.mem_append_left _ hc))
  have hτ : ∀ j < J, spot (τ j) 1 ∈ K := fun j hj =>
    Finset.mem_insert_of_mem (List.mem_toFinset.mpr (List.mem_append_right _ (List.mem_map.mpr ⟨j, List.mem_range.mpr hj, rfl⟩)))
  have hcut : ∀ c ∈ K, IsCut c := by
    intro c hc
    rcases Finset.mem_insert.mp hc with rfl | hc
    · exact .inl rfl
    · rcases List.mem_append.mp (List.mem_toFinset.mp hc) with hc | hc
      · exact allCuts_isCut c hc
      · obtain ⟨j, -, rfl⟩ := List.mem_map.mp hc
        exact .inl rfl
  obtain ⟨L, hL⟩ : ∃ L, K.card = L + 1 :=
    ⟨K.card - 1, (Nat.sub_add_cancel (Finset.card_pos.mpr (Finset.insert_nonempty _ _))).symm⟩
  let f := K.orderEmbOfFin hL
  have hf : ∀ c ∈ K, ∃ j, f j = c := by
    intro c hc
    have : c ∈ Set.range f := by rw [Finset.range_orderEmbOfFin]; exact hc
    exact this
  let c : Nat → Spot T := fun i => f ⟨L - i, by omega⟩
  have hcK : ∀ i, c i ∈ K := fun i => Finset.orderEmbOfFin_mem K hL _
  have hKc : ∀ d ∈ K, ∃ i ≤ L, c i = d := by
    intro d hd
    obtain ⟨j, rfl⟩ := hf d hd
    refine ⟨L - j, Nat.sub_le _ _, congrArg f (Fin.ext ?_)⟩
    have := j.2
    simp only
    omega
  have har : ∀ i, ∃ p n, Around p (c i) n := fun i => (hcut _ (hcK i)).around
  choose b a har using har
  have hdesc : ∀ i < L, c (i + 1) < c i := fun i hi => f.strictMono (by rw [Fin.lt_def]; simp only; omega)
  have hanti : ∀ i j, i ≤ j → c j ≤ c i := fun i j hij => f.monotone (by rw [Fin.le_def]; simp only; omega)
  have hw : ∀ i n, ∃ g, n < 2 * k → SpotAgree (drawn κ ι n) (b i) (c i) (a i) g := by
    intro i n
    by_cases hn : n < 2 * k
    · obtain ⟨g, hg⟩ := Germ.exists_of (fun h' => ((drawing_all κ ι hκ hn).open' (har i) h').1)
        fun h' => ((drawing_all κ ι hκ hn).open' (har i) h').2
      exact ⟨g, fun _ => hg⟩
    · exact ⟨.nothing, fun h => absurd h hn⟩
  choose w hw using hw
  have hline : Core.Line (drawn κ ι) (2 * k) (fun n => (Shape.line κ n).up) L b c a w := {
    around := fun i _ => har i
    desc := hdesc
    agree := fun i _ n hn => hw i n hn
    const := fun n hn p q hpq hc => (drawing_all κ ι hκ hn).const hpq fun d hd => by
      obtain ⟨i, hi, rfl⟩ := hKc d (hK d hd)
      exact hc i hi
    top := fun n hn p hp => (drawing_all κ ι hκ hn).top fun d hd => by
      obtain ⟨i, hi, rfl⟩ := hKc d (hK d hd)
      exact (hanti 0 i (Nat.zero_le i)).trans_lt hp }
  refine ⟨L, b, c, a, w, hline, hline.chain fun n hn i _ => (drawing_all κ ι hκ hn).germ (har i) (hw i n hn), fun n hn => ?_,
    fun i => hcut _ (hcK i), hanti, fun j hj => hKc _ (hτ j hj)⟩
  rw [Bool.eq_iff_iff, ← (hw L n hn).1]
  refine (drawing_all κ ι hκ hn).bottom fun d hd => ?_
  obtain ⟨i, hi, rfl⟩ := hKc d (hK d hd)
  exact (har L).lt.trans_le (hanti i L hi)

/-- Values of integers with a given path. -/
theorem Term.exists_line_values (κ : Nat → Option Shape) {k L : Nat} {w : Nat → Nat → Germ}
    (hw : Core.Chain (Shape.line κ) (2 * k) w (L + 1)) (hd : ∀ n < 2 * k, (w L n).left = (Shape.line κ n).down) :
    ∃ ι : Nat → Inner Int, (∀ n, (ι n).shape = κ n ∧ (ι n).Normal) ∧
      ∃ b c a, Core.Line (drawn κ ι) (2 * k) (fun n => (Shape.line κ n).up) L b c a w ∧
        ∀ i : Nat, spot (-(i : Int)) 2 ∈ Core.cell L c i := by
  obtain ⟨ι, h1, h2⟩ := exists_values κ hw
  have hlt : ∀ i : Nat, before (-i - 1) < spot (-(i : Int)) 0 ∧ spot (-(i : Int)) 0 < before (-i) := fun i => by
    simp [before, spot_lt]
  have hgt : ∀ i : Nat, before (-i) < spot (-(i : Int)) 2 ∧ spot (-(i : Int)) 2 < before (-i + 1) := fun i => by
    simp [before, spot_lt]
  refine ⟨ι, h1, fun i => spot (-(i : Int)) 0, fun i => before (-i), fun i => spot (-(i : Int)) 2, ?_, fun i => ?_⟩
  swap
  · cases i with
    | zero => exact (hgt 0).1
    | succ i => exact ⟨by simp only [before, spot_lt]; left; push_cast; omega, fun _ => (hgt (i + 1)).1⟩
  refine ⟨fun i _ => Formula.around_one _, fun i _ => before_lt.mpr (by push_cast; omega), ?_, ?_, fun n hn => (h2 n hn).1⟩
  · intro i hi n hn
    refine ⟨(h2 n hn).2.1 i hi _ (hlt i).1 (hlt i).2, (h2 n hn).2.2.1 i hi, ?_⟩
    rw [hw.formula i (Nat.lt_succ_of_le hi) n hn]
    cases i with
    | zero => exact (h2 n hn).1 _ (hgt 0).1
    | succ j =>
      have a := (hgt (j + 1)).1
      have b := (hgt (j + 1)).2
      refine (h2 n hn).2.1 j (Nat.le_of_succ_le hi) _ ?_ ?_
      · convert a using 2; push_cast; omega
      · convert b using 2; push_cast; omega
  · intro n hn p q hpq hc
    have h := h2 n hn
    by_cases hq : ∃ i ≤ L, q = before (-(i : Int))
    · obtain ⟨i, hi, rfl⟩ := hq
      exact absurd ⟨hpq, le_rfl⟩ (hc i hi)
    · push Not at hq
      obtain ⟨i, hi, hcell⟩ := Core.exists_cell hq
      cases i with
      | zero =>
        have hq0 : before 0 < q := by simpa [Core.cell] using hcell
        have hp0 : before 0 < p := not_le.mp fun h' => hc 0 (Nat.zero_le _) ⟨by simpa using h', by simpa using hq0.le⟩
        rw [h.1 p hp0, h.1 q hq0]
      | succ i =>
        have hi : i ≤ L := Nat.le_of_succ_le_succ hi
        have h1 := hcell.1
        rcases hi.lt_or_eq with hL | rfl
        · have h3 := hcell.2 hL
          simp only at h3
          have h4 : before (-((i + 1 : Nat) : Int)) < p := not_le.mp fun h' => hc (i + 1) hL ⟨h', h3.le⟩
          have e : -((i + 1 : Nat) : Int) = -i - 1 := by push_cast; omega
          rw [e] at h3 h4
          rw [h.2.1 i hi p h4 (hpq.trans_lt h1), h.2.1 i hi q h3 h1]
        · rw [h.2.2.2 (hd n hn) p (hpq.trans_lt h1), h.2.2.2 (hd n hn) q h1]

/-! ### Sentences -/

namespace Sentence

/-- A sentence is true of given values and elements if it is with the drawings that differ, what is drawn at the elements and
how they compare. -/
theorem holds_iff (κ : Nat → Option Shape) (σ : Nat → Any T) (τ : Nat → T) (hκ : ∀ n, (σ n).toInner.shape = κ n)
    (hn : ∀ n, (σ n).toInner.Normal) {d : Core × Core → Bool} {p : Nat × Core → Bool} {r : Nat × Nat → Bool} (s : Sentence)
    (hf : s.elems = 0 ∨ ∀ n, (σ n).Fresh)
    (hd : ∀ q ∈ s.pairs κ, q.1.spots (Term.drawn κ fun n => (σ n).toInner) = q.2.spots (Term.drawn κ fun n => (σ n).toInner) ↔
      d q = false)
    (hp : ∀ q ∈ s.places κ, spot (τ q.1) 2 ∈ q.2.spots (Term.drawn κ fun n => (σ n).toInner) ↔ p q = true)
    (hr : ∀ q ∈ s.orders, τ q.1 < τ q.2 ↔ r q = true) : s.Holds σ τ ↔ s.truth κ d p r = true := by
  have : Nonempty T := ⟨τ 0⟩
  have eval := Term.eval_drawn κ σ hκ fun n => (Inner.normal_iff _).mp (hn n)
  induction s with
  | eq e f =>
    obtain ⟨v, v1, v2, v3, v4, v5⟩ := eval e
    obtain ⟨w, w1, w2, w3, w4, w5⟩ := eval f
    have d1 := hd _ (List.mem_cons_self ..)
    have d2 := hd _ (List.mem_cons_of_mem _ (List.mem_cons_self ..))
    simp only [truth, Bool.and_eq_true, Bool.not_eq_true', beq_iff_eq, ← d1, ← d2]
    rw [← v3, ← w3, ← v4, ← w4, ← v5, ← w5]
    constructor
    · rintro ⟨v', w', h1, h2, h3⟩
      rw [v1] at h1
      rw [w1] at h2
      injection h1 with h1
      injection h2 with h2
      subst h1 h2
      rw [h3]
      exact ⟨⟨rfl, rfl⟩, rfl⟩
    · rintro ⟨⟨h1, h2⟩, h3⟩
      exact ⟨v, w, v1, w1, Inner.eq_of_drawings v2 w2 h1 h2 h3⟩
  | isEmpty e =>
    obtain ⟨v, v1, v2, v3, v4, v5⟩ := eval e
    have d1 := hd _ (List.mem_cons_self ..)
    simp only [truth, Bool.not_eq_true', ← d1]
    rw [Term.inside, Core.spots_meet, ← v4, ← v5, ← Inner.inside_eq, Core.spots_false, ← Inner.isEmpty_iff_inside,
      Any.isEmpty_toInner]
    constructor
    · rintro ⟨v', h1, h2⟩
      rw [v1] at h1
      injection h1 with h1
      subst h1
      exact h2
    · exact fun h => ⟨v, v1, h⟩
  | mem j e =>
    obtain ⟨v, v1, v2⟩ := Term.contains_iff κ σ hκ (fun n => (Inner.normal_iff _).mp (hn n))
      (hf.resolve_left (Nat.succ_ne_zero j)) e
    rw [truth, ← hp _ (List.mem_singleton.mpr rfl), ← v2]
    constructor
    · rintro ⟨v', h1, h2⟩
      rw [v1] at h1
      injection h1 with h1
      subst h1
      exact h2
    · exact fun h => ⟨v, v1, h⟩
  | lt i j => exact hr (i, j) (List.mem_singleton.mpr rfl)
  | not s ih =>
    have := ih hf hd hp hr
    simp only [Holds, truth, Bool.not_eq_true', ← Bool.not_eq_true]
    exact not_congr this
  | and s t ihs iht =>
    simp only [Holds, truth, Bool.and_eq_true]
    have h0 : (s.elems = 0 ∨ ∀ n, (σ n).Fresh) ∧ (t.elems = 0 ∨ ∀ n, (σ n).Fresh) := by
      rcases hf with hf | hf
      · simp only [elems] at hf; exact ⟨.inl (by omega), .inl (by omega)⟩
      · exact ⟨.inr hf, .inr hf⟩
    exact and_congr
      (ihs h0.1 (fun q hq => hd q (List.mem_append_left _ hq))
        (fun q hq => hp q (List.mem_append_left _ hq))
        fun q hq => hr q (List.mem_append_left _ hq))
      (iht h0.2 (fun q hq => hd q (List.mem_append_right _ hq))
        (fun q hq => hp q (List.mem_append_right _ hq))
        fun q hq => hr q (List.mem_append_right _ hq))

/-- Whether a sentence is true can be read off a line with the elements in its cells. -/
theorem holds_line {κ : Nat → Option Shape} {σ : Nat → Any T} {τ : Nat → T} (hκ : ∀ n, (σ n).toInner.shape = κ n)
    (hn : ∀ n, (σ n).toInner.Normal) {s : Sentence} (hf : s.elems = 0 ∨ ∀ n, (σ n).Fresh) {L : Nat} {b c a : Nat → Spot T}
    {w : Nat → Nat → Germ}
    (hl : Core.Line (Term.drawn κ fun n => (σ n).toInner) (2 * s.vars) (fun n => (Shape.line κ n).up) L b c a w)
    {C : Nat → Nat} (hC : ∀ j < s.elems, C j ≤ L + 1 ∧ spot (τ j) 2 ∈ Core.cell L c (C j))
    (hr : ∀ i < s.elems, ∀ j < s.elems, τ i < τ j ↔ C j < C i) : s.Holds σ τ ↔
      s.truth κ (fun q => Core.differs (Shape.line κ) w q (L + 1))
        (fun q => ((Core.passed (Shape.line κ) w C (L + 1) q.1).getD (Core.run (Shape.line κ) w (L + 1)) q.2).1) (Core.later C (L + 1)) =
          true := by
  refine holds_iff κ σ τ hκ hn s hf (fun q hq => ?_) (fun q hq => ?_) fun q hq => ?_
  · have := below_pairs κ s le_rfl q hq
    exact hl.spots_eq_iff this.1 this.2
  · obtain ⟨hj, hc⟩ := below_places κ s le_rfl q hq
    rw [(hl.fits (hC q.1 hj).1 _ (hC q.1 hj).2 _ hc).1]
    have : (Core.passed (Shape.line κ) w C (L + 1) q.1).getD (Core.run (Shape.line κ) w (L + 1)) =
        Core.run (Shape.line κ) w (C q.1) := by
      unfold Core.passed
      by_cases h : C q.1 < L + 1
      · rw [if_pos h]; rfl
      · rw [if_neg h, le_antisymm (hC q.1 hj).1 (not_lt.mp h)]; rfl
    rw [this]
  · have := lt_orders s q hq
    rw [hr q.1 this.1 q.2 this.2, Core.later, decide_eq_true_eq]
    have := (hC q.1 this.1).1
    omega

/-- A sentence that passes the test is true. -/
theorem holds_of_valid (s : Sentence) (σ : Nat → Any T) (τ : Nat → T) (hn : ∀ n, (σ n).toInner.Normal)
    (hf : s.elems = 0 ∨ ∀ n, (σ n).Fresh) (h : s.valid (fun n => (σ n).toInner.shape) = true) : s.Holds σ τ := by
  obtain ⟨L, b, c, a, w, hl, hw, hd, hcut, hanti, hsep⟩ := Term.exists_line (fun n => (σ n).toInner.shape)
    (fun n => (σ n).toInner) (fun _ => rfl) s.vars τ s.elems
  have hcell : ∀ t : T, ∃ i ≤ L + 1, spot t 2 ∈ Core.cell L c i := fun t => Core.exists_cell fun i _ h =>
    Formula.not_isCut t (by decide) (by decide) (h ▸ hcut i)
  choose C hC1 hC2 using hcell
  have key : ∀ i < s.elems, ∀ j < s.elems, τ i < τ j → C (τ j) < C (τ i) := by
    intro i _ j hj hij
    obtain ⟨n, hn, hc⟩ := hsep j hj
    have h1 : C (τ j) ≤ n := Core.le_of_cell hanti (hC2 (τ j)) (by rw [hc]; simp [spot_lt])
    exact h1.trans_lt (Core.lt_of_cell hanti hn (hC2 (τ i)) (by rw [hc]; simp [spot_lt, hij]))
  rw [holds_line (fun _ => rfl) hn hf hl (C := fun j => C (τ j)) (fun j _ => ⟨hC1 _, hC2 _⟩) fun i hi j hj =>
    ⟨key i hi j hj, fun h => ?_⟩]
  · rw [← Core.above_passed (Shape.line fun n => (σ n).toInner.shape) w]
    refine valid_iff.mp h _ _ _ _ (Core.seen_run (fun j => C (τ j)) (hw.mono (Nat.le_succ L))) (w L) _ (fun n hn => ?_)
      (Core.marked_passed _ _ _ L) hd
    rw [Core.run_var]
    have := hw L (Nat.lt_succ_self L) n hn
    cases L <;> exact this
  · rcases lt_trichotomy (τ i) (τ j) with h' | h' | h'
    · exact h'
    · rw [h'] at h; exact absurd h (lt_irrefl _)
    · exact absurd (key j hj i hi h') h.not_gt

/-- A sentence that fails is false of some values and elements. -/
theorem exists_of_not_valid (s : Sentence) (κ : Nat → Option Shape) (h : s.valid κ = false) :
    ∃ (ι : Nat → Inner Int) (τ : Nat → Int), (∀ n, (ι n).shape = κ n ∧ (ι n).Normal) ∧ ¬ s.Holds (fun n => .inner (ι n)) τ := by
  have h : ¬ s.valid κ = true := by rw [h]; decide
  rw [valid_iff] at h
  push Not at h
  obtain ⟨m, d, p, r, hm, v, p', hv, hp, hd, hf⟩ := h
  obtain ⟨L, w₀, C₀, hw₀, hC₀, rfl, rfl, rfl, rfl⟩ := Core.exists_seen hm
  obtain ⟨w, hw, h0, rfl⟩ := Core.chain_append' hw₀ hv
  obtain ⟨C, hC, rfl, hlater⟩ := Core.exists_passed hC₀ hp
  obtain ⟨ι, hι, b, c, a, hl, hcell⟩ := Term.exists_line_values κ hw hd
  refine ⟨ι, fun j => -(C j : Int), hι, ?_⟩
  rw [holds_line (κ := κ) (σ := fun n => .inner (ι n)) (fun n => (hι n).1) (fun n => (hι n).2) (.inr fun _ => trivial) hl (C := C)
    (fun j _ => ⟨hC j, hcell (C j)⟩) fun i _ j _ => by omega]
  intro ht
  refine hf ?_
  rw [← ht]
  refine truth_congr s (fun q hq => ?_) (fun q _ => ?_) fun q _ => ?_
  · rw [Core.differs, Core.differs_congr h0, Core.run_congr h0]
  · rw [Core.passed_congr h0, Core.run, Core.run_congr h0]
  · rw [hlater, Core.above_passed]

end Sentence

/-- C124. A sentence without elements that passes the test for the types of the variables is true of all normal values of these
types. -/
theorem C124_valid (s : Sentence) (hs : s.elems = 0) (σ : Nat → Any T) (τ : Nat → T) (hn : ∀ n, (σ n).toInner.Normal)
    (h : s.valid (fun n => (σ n).toInner.shape) = true) : s.Holds σ τ := s.holds_of_valid σ τ hn (.inl hs) h

/-- C124. A sentence that fails is false of some normal values of the types in question, with integers as elements. -/
theorem C124_complete (s : Sentence) (κ : Nat → Option Shape) (h : s.valid κ = false) :
    ∃ (ι : Nat → Inner Int) (τ : Nat → Int), (∀ n, (ι n).shape = κ n ∧ (ι n).Normal) ∧ ¬ s.Holds (fun n => .inner (ι n)) τ :=
  s.exists_of_not_valid κ h

/-! ### For all types at once -/

omit [LinearOrder T] in
theorem Sentence.holds_congr [LE T] [LT T] [DecidableLE T] [DecidableLT T] [Ord T] [BEq T] {σ σ' : Nat → Any T} {τ : Nat → T}
    (s : Sentence) (h : ∀ n < s.vars, σ n = σ' n) : s.Holds σ τ ↔ s.Holds σ' τ := by
  induction s with
  | eq e f =>
    rw [Holds, Holds, Term.expr_congr e fun n hn => h n (hn.trans_le (Nat.le_max_left _ _)),
      Term.expr_congr f fun n hn => h n (hn.trans_le (Nat.le_max_right _ _))]
  | isEmpty e => rw [Holds, Holds, Term.expr_congr e h]
  | mem j e => rw [Holds, Holds, Term.expr_congr e h]
  | lt i j => exact Iff.rfl
  | not s ih => rw [Holds, Holds, ih h]
  | and s t ihs iht =>
    rw [Holds, Holds, ihs fun n hn => h n (hn.trans_le (Nat.le_max_left _ _)),
      iht fun n hn => h n (hn.trans_le (Nat.le_max_right _ _))]

/-- C124. A sentence without elements that passes the test for all types is true of all normal values of any type of element. -/
theorem C124_any (s : Sentence) (hs : s.elems = 0) (h : Term.forAllTypes s.valid s.vars = true) (σ : Nat → Any T) (τ : Nat → T)
    (hn : ∀ n < s.vars, (σ n).toInner.Normal) : s.Holds σ τ := by
  rw [Term.forAllTypes_iff] at h
  have := C124_valid s hs (Term.cutOff σ s.vars) τ (Term.cutOff_all (P := fun a => a.toInner.Normal) trivial hn)
    (h _ fun n hn => Term.cutOff_shape σ hn)
  refine (s.holds_congr fun n hn => ?_).mp this
  simp only [Term.cutOff, if_pos hn]

/-- C124. Passing the test for all types is being true of all normal values with integers as elements. -/
theorem C124_all (s : Sentence) (hs : s.elems = 0) :
    Term.forAllTypes s.valid s.vars = true ↔
      ∀ (σ : Nat → Any Int) (τ : Nat → Int), (∀ n, (σ n).toInner.Normal) → s.Holds σ τ := by
  constructor
  · exact fun h σ τ hn => C124_any s hs h σ τ fun n _ => hn n
  · intro h
    rw [Term.forAllTypes_iff]
    intro κ _
    by_contra hn
    obtain ⟨ι, τ, hι, hf⟩ := C124_complete s κ (by simpa using hn)
    exact hf (h (fun n => .inner (ι n)) τ fun n => (hι n).2)

/-! ### Some laws -/

omit [LinearOrder T] in
/-- C124. `disjoint` and `intersects` are among the sentences. -/
theorem C124_disjoint [LE T] [LT T] [DecidableLE T] [DecidableLT T] [Ord T] [BEq T] (σ : Nat → Any T) (τ : Nat → T)
    (e f : Term) {v w : Any T} {x y : Bool} (hv : (e.expr σ).eval = .ok v) (hw : (f.expr σ).eval = .ok w)
    (hx : v.disjoint w = .ok x) (hy : v.intersects w = .ok y) :
    ((Sentence.isEmpty (.inter e f)).Holds σ τ ↔ x = true) ∧ ((Sentence.not (.isEmpty (.inter e f))).Holds σ τ ↔ y = true) := by
  have hc : ∃ c, v.inter w = .ok c ∧ c.isEmpty = x := by
    unfold Any.disjoint at hx
    cases h : v.inter w with
    | ok c =>
      rw [h] at hx
      injection hx with hx
      exact ⟨c, rfl, hx⟩
    | panic => rw [h] at hx; cases hx
  obtain ⟨c, hc, rfl⟩ := hc
  have hy : y = !c.isEmpty := by
    unfold Any.intersects Any.disjoint at hy
    rw [hc] at hy
    injection hy with hy
    exact hy.symm
  have key : (Sentence.isEmpty (.inter e f)).Holds σ τ ↔ c.isEmpty = true := by
    simp only [Sentence.Holds, Term.expr, Expr.eval, hv, hw, Res.ok_bind, hc]
    constructor
    · rintro ⟨c', h, h'⟩
      injection h with h
      subst h
      exact h'
    · exact fun h => ⟨.inner c, rfl, h⟩
  refine ⟨key, ?_⟩
  rw [hy, Bool.not_eq_true', ← Bool.not_eq_true]
  exact not_congr key

/-- Two values for the variables. -/
def Term.pair (a b : Any T) : Nat → Any T := fun n => if n = 0 then a else b

omit [LinearOrder T] in
theorem Term.pair_normal [LinearOrder T] {a b : Any T} (ha : a.toInner.Normal) (hb : b.toInner.Normal) (n : Nat) :
    (pair a b n).toInner.Normal := by
  by_cases h : n = 0
  · rw [pair, if_pos h]; exact ha
  · rw [pair, if_neg h]; exact hb

theorem Term.eval_pair {a b : Any T} (ha : a.toInner.Normal) (hb : b.toInner.Normal) (e : Term) :
    ∃ v, (e.expr (pair a b)).eval = .ok v := by
  obtain ⟨v, hv, -⟩ := eval_drawn _ (pair a b) (fun _ => rfl) (fun n => (Inner.normal_iff _).mp (pair_normal ha hb n)) e
  exact ⟨v, hv⟩

/-- C124. Converting two normal values of any types to sets does not change whether they are disjoint, although it can
change the members of the intersection. -/
theorem C124_disjoint_toSet [Nonempty T] (a b : Any T) (ha : a.toInner.Normal) (hb : b.toInner.Normal) :
    ∃ v w, (Expr.inter (.toSet (.leaf a)) (.toSet (.leaf b))).eval = .ok v ∧ (Expr.inter (.leaf a) (.leaf b)).eval = .ok w ∧
      v.isEmpty = w.isEmpty := by
  obtain ⟨t⟩ := ‹Nonempty T›
  have h := C124_any (.iff (.isEmpty (.inter (.toSet (.var 0)) (.toSet (.var 1)))) (.isEmpty (.inter (.var 0) (.var 1))))
    rfl (by decide +kernel) (Term.pair a b) (fun _ => t) fun n _ => Term.pair_normal ha hb n
  obtain ⟨v, hv⟩ := Term.eval_pair ha hb (.inter (.toSet (.var 0)) (.toSet (.var 1)))
  obtain ⟨w, hw⟩ := Term.eval_pair ha hb (.inter (.var 0) (.var 1))
  refine ⟨v, w, hv, hw, ?_⟩
  simp only [Sentence.iff, Sentence.imp, Sentence.Holds, hv, hw, Res.ok.injEq, exists_eq_left'] at h
  rw [Bool.eq_iff_iff]
  tauto

/-- C124. A normal value and its complement are not both empty, whatever the type. -/
theorem C124_complement_isEmpty [Nonempty T] (a c : Any T) (ha : a.toInner.Normal) (hc : (Expr.complement (.leaf a)).eval = .ok c) :
    ¬ (a.isEmpty = true ∧ c.isEmpty = true) := by
  obtain ⟨t⟩ := ‹Nonempty T›
  have h := C124_any (.not (.and (.isEmpty (.var 0)) (.isEmpty (.complement (.var 0))))) rfl (by decide +kernel)
    (Term.pair a a) (fun _ => t) fun n _ => Term.pair_normal ha ha n
  rintro ⟨h1, h2⟩
  exact h ⟨⟨a, rfl, h1⟩, ⟨c, hc, h2⟩⟩

/-- C124. The union of a normal value with its complement is never empty, whatever the type (it need not be everything: a
cut between two pieces can be left out). -/
theorem C124_union_complement [Nonempty T] (a c : Any T) (ha : a.toInner.Normal)
    (hc : (Expr.union (.leaf a) (.complement (.leaf a))).eval = .ok c) : c.isEmpty = false := by
  obtain ⟨t⟩ := ‹Nonempty T›
  have h := C124_any (.not (.isEmpty (.union (.var 0) (.complement (.var 0))))) rfl (by decide +kernel)
    (Term.pair a a) (fun _ => t) fun n _ => Term.pair_normal ha ha n
  rw [← Bool.not_eq_true]
  exact fun h' => h ⟨c, hc, h'⟩

section Samples

private def a : Term := .var 0
private def b : Term := .var 1
private def bs : Option Shape := some ⟨true, true, true⟩
private def lbr : Option Shape := some ⟨false, true, false⟩
private def ubr : Option Shape := some ⟨false, false, true⟩
private def types (j k : Option Shape) : Nat → Option Shape := fun n => if n = 0 then j else k

open Sentence
open Term (complement inter union toSet forAllTypes)

-- a `LowerBoundedRange` and an `UpperBoundedRange` that are disjoint and together everything are complements of each other
example : (imp (and (isEmpty (inter a b)) (isEmpty (complement (union a b)))) (eq (complement a) b)).valid (types lbr ubr) =
    true := by decide +kernel

-- half-lines with equal complements are equal, sets need not be
example : (imp (eq (complement a) (complement b)) (eq a b)).valid (types lbr lbr) = true := by decide +kernel
example : (imp (eq (complement a) (complement b)) (eq a b)).valid (types bs bs) = false := by decide +kernel

-- such sets: with and without a cut left out between two pieces
example : Inner.complement (.bs ⟨[Samples.co 0 1, Samples.co 1 2]⟩) = Inner.complement (.bs ⟨[Samples.co 0 2]⟩) ∧
    (Inner.bs ⟨[Samples.co 0 1, Samples.co 1 2]⟩).Normal := by decide

-- a value is empty for `EmptyRange` alone
example : forAllTypes (fun κ => (Sentence.isEmpty a).valid κ == (κ 0 == none)) 1 = true := by decide +kernel

-- values the theorems are about: a range with bounds out of order, and sets
example : (Any.inner (.br (Samples.co 5 2))).toInner.Normal ∧ (Any.inner Samples.lbs).toInner.Normal ∧
    (Any.rangeFrom ⟨(3 : Int)⟩).toInner.shape = lbr := by
  refine ⟨trivial, by decide, rfl⟩

end Samples

end Rangetools
