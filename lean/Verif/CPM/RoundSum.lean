import Verif.CPM.RoundLemmas

/-! Helper lemmas: the collision probabilities of cylinder and sphere are chord sums. -/

namespace Verif.CPM

open Verif Outcome Finset

noncomputable section

variable {d : Data} {R : Shape} {Z : Ten3 × Ten4}

/-- entries of a pair of matrices -/
abbrev pmV (A : Mat ℝ × Mat ℝ) (x : Bool × ℕ × ℕ) : ℝ := if x.1 = true then A.1.m x.2.1 x.2.2 else A.2.m x.2.1 x.2.2

/-- sizes of a pair of matrices -/
abbrev PMGood (d : Data) (A : Mat ℝ × Mat ℝ) : Prop := MatGood d.cells d.cells A.1 ∧ MatGood d.cells d.cells A.2

theorem ringSums_ok {C : Ten3 × Ten3} (hC : PairGood (DC d) C) : ∃ S, ringSums d C = ok S ∧ PMGood d S ∧
    (∀ i j, i ≤ j → j < d.cells → S.1.m i j = ∑ m ∈ range (i + 1), C.1.v (m, i, j)) ∧
    (∀ i, i < d.cells → S.2.m i i = ∑ m ∈ range (i + 1), C.2.v (m, i, i)) := by
  classical
  set T : Nat → Bool × ℕ × ℕ → Prop := fun i x => x.2.1 = i ∧ ((x.1 = true ∧ i ≤ x.2.2 ∧ x.2.2 < d.cells) ∨ (x.1 = false ∧ x.2.2 = i))
    with hT
  have d1 : ∀ m i j, m < d.cells → i < d.cells → j < d.cells → C.1.dom (m, i, j) := fun m i j a b c => by
    rw [hC.1]; exact ⟨a, b, c⟩
  have d2 : ∀ m i j, m < d.cells → i < d.cells → j < d.cells → C.2.dom (m, i, j) := fun m i j a b c => by
    rw [hC.2]; exact ⟨a, b, c⟩
  have key : Maps (PMGood d) pmV (fun S => loop (fun i S => loop (fun m (S : Mat ℝ × Mat ℝ) => do
    let x ← S.2.get i i
    let c ← C.2.get (m, i, i)
    let C2 ← S.2.set i i (x + c)
    let C1 ← loopFrom i (fun j (C1 : Mat ℝ) => do
      let y ← C1.get i j
      let c ← C.1.get (m, i, j)
      C1.set i j (y + c)) (d.cells - i) S.1
    ok (C1, C2)) (i + 1) S) d.cells S) (fun x => ∃ i, i < d.cells ∧ T i x)
      (fun x o => o + ∑ m ∈ range (x.2.1 + 1), if x.1 = true then C.1.v (m, x.2.1, x.2.2) else C.2.v (m, x.2.1, x.2.2)) := by
    refine Maps.loop (fun i hi => ?_) ?_
    · refine (Maps.accum (S := T i) (w := fun m x => if x.1 = true then C.1.v (m, x.2.1, x.2.2) else C.2.v (m, x.2.1, x.2.2))
        (n := i + 1) (fun m hm => ?_)).congr_val ?_
      · rintro ⟨A, B⟩ ⟨gA, gB⟩
        have inner : Maps (MatGood d.cells d.cells) (matV (K := ℝ)) (fun C1 => loopFrom i (fun j (C1 : Mat ℝ) => do
            let y ← C1.get i j
            let c ← C.1.get (m, i, j)
            C1.set i j (y + c)) (d.cells - i) C1) (fun x => ∃ j, i ≤ j ∧ j < i + (d.cells - i) ∧ x = (i, j))
            (fun x o => o + C.1.v (m, x.1, x.2)) := by
          refine Maps.loopFrom (S := fun j x => x = (i, j)) (fun j hij hj => ?_) ?_
          · refine (Maps.matSet (p := i) (q := j) (u := fun M => M.m i j + C.1.v (m, i, j)) hi (by omega)
              (fun M _ _ => rfl)).congr ?_ (fun _ => Iff.rfl)
            rintro M ⟨h1, h2⟩
            rw [Mat.get_ok (by omega) (by omega), ok_bind, Arr.get_ok (d1 m i j (by omega) hi (by omega)), ok_bind]
          · rintro a b x _ hab _ rfl h'
            simp only [Prod.mk.injEq] at h'
            omega
        obtain ⟨A', eA, gA', vA⟩ := inner A gA
        dsimp only at eA ⊢
        rw [Mat.get_ok (by rw [gB.1]; exact hi) (by rw [gB.2]; exact hi), ok_bind, Arr.get_ok (d2 m i i (by omega) hi hi), ok_bind,
          Mat.set_ok (by rw [gB.1]; exact hi) (by rw [gB.2]; exact hi), ok_bind, eA, ok_bind]
        refine ⟨_, rfl, ⟨gA', gB⟩, ?_⟩
        rintro ⟨c, a, b⟩
        cases c
        · simp only [hT, pmV, Bool.false_eq_true, if_false, false_and, false_or, true_and]
          constructor
          · rintro ⟨rfl, rfl⟩
            rw [if_pos ⟨rfl, rfl⟩]
          · intro hx
            rw [if_neg hx]
        · simp only [hT, pmV, if_true, true_and, Bool.true_eq_false, false_and, or_false]
          constructor
          · rintro ⟨rfl, h1, h2⟩
            exact (vA (a, b)).1 ⟨b, h1, by omega, rfl⟩
          · intro hx
            refine (vA (a, b)).2 ?_
            rintro ⟨j, h1, h2, h3⟩
            simp only [Prod.mk.injEq] at h3
            obtain ⟨rfl, rfl⟩ := h3
            exact hx ⟨rfl, h1, by omega⟩
      · rintro ⟨c, a, b⟩ o ⟨hx, -⟩
        have : a = i := hx
        subst this
        rfl
    · rintro a b ⟨c, x, y⟩ hab _ ⟨h1, -⟩ ⟨h2, -⟩
      simp only at h1 h2
      omega
  obtain ⟨S, eS, gS, vS⟩ := key (Mat.zero d.cells d.cells, Mat.zero d.cells d.cells) ⟨⟨rfl, rfl⟩, ⟨rfl, rfl⟩⟩
  refine ⟨S, eS, gS, ?_, ?_⟩
  · intro i j hij hj
    have := (vS (true, i, j)).1 ⟨i, by omega, rfl, Or.inl ⟨rfl, hij, hj⟩⟩
    simpa [pmV, Mat.zero] using this
  · intro i hi
    have := (vS (false, i, i)).1 ⟨i, hi, rfl, Or.inr ⟨rfl, rfl⟩⟩
    simpa [pmV, Mat.zero] using this

/-- the probabilities from the ring sums -/
def ringVal (d : Data) (h : Nat) (C : Mat ℝ × Mat ℝ) (i j : Nat) : ℝ :=
  if i < j then C.1.m i (j - 1) - C.1.m i j
  else if i = j then 1 - C.2.m i i
  else (C.1.m j (i - 1) - C.1.m j i) * (d.vol.v j / d.vol.v i) * (d.tot.m h j / d.tot.m h i)

theorem roundGroup_ok (wf : WellFormed d) (hV : ∀ i, i < d.cells → d.vol.v i ≠ 0)
    (ht : ∀ h, h < d.energies → ∀ i, i < d.cells → 0 < d.tot.m h i) {h : Nat} (hh' : h < d.energies) (hc : 0 < d.cells)
    {C : Mat ℝ × Mat ℝ} (hC : PMGood d C) {G : Ten3} (hG : G.dom = D3 d) :
    ∃ G', roundGroup d h C G = ok G' ∧ G'.dom = D3 d ∧
      (∀ i j, i < d.cells → j < d.cells → G'.v (i, j, h) = ringVal d h C i j) ∧
      (∀ x, ¬ (x.1 < d.cells ∧ x.2.1 < d.cells ∧ x.2.2 = h) → G'.v x = G.v x) := by
  classical
  obtain ⟨⟨c1, c2⟩, ⟨c3, c4⟩⟩ := hC
  have w1 := wf.tot_r
  have w2 := wf.tot_c
  have w3 := wf.vol_n
  set val : ℕ × ℕ × ℕ → ℝ := fun x => ringVal d x.2.2 C x.1 x.2.1 with hval
  have fU : Fills (ArrGood (D3 d)) (fun A : Ten3 => A.v) (fun _ => False) (fun G => loop (fun i G => loopFrom i (fun j (G : Ten3) => do
    let x ← C.1.get i j
    let y ← C.1.get i (j + 1)
    G.set (i, j + 1, h) (x - y)) (d.cells - 1 - i) G) d.cells G)
      (fun x => ∃ i, i < d.cells ∧ ∃ j, i ≤ j ∧ j < i + (d.cells - 1 - i) ∧ x = (i, j + 1, h)) val := by
    refine Fills.loop (fun i hi => Fills.loopFrom (S := fun j x => x = (i, j + 1, h)) (fun j hij hj => ?_))
    refine (Fills.arrSet (p := (i, j + 1, h)) (a := C.1.m i j - C.1.m i (j + 1)) ⟨hi, by show j + 1 < d.cells; omega, hh'⟩ ?_).congr
      ?_ (fun _ => Iff.rfl)
    · simp only [hval, ringVal]
      rw [if_pos (by omega), show j + 1 - 1 = j by omega]
    · intro G _ _
      rw [Mat.get_ok (by omega) (by omega), ok_bind, Mat.get_ok (by omega) (by omega), ok_bind]
  have fD : Fills (ArrGood (D3 d)) (fun A : Ten3 => A.v)
      (fun x => False ∨ ∃ i, i < d.cells ∧ ∃ j, i ≤ j ∧ j < i + (d.cells - 1 - i) ∧ x = (i, j + 1, h)) (fun G => loop (fun i (G : Ten3) => do
    let x ← C.2.get i i
    G.set (i, i, h) (1 - x)) d.cells G) (fun x => ∃ i, i < d.cells ∧ x = (i, i, h)) val := by
    refine Fills.loop (fun i hi => ?_)
    refine (Fills.arrSet (p := (i, i, h)) (a := 1 - C.2.m i i) ⟨hi, hi, hh'⟩ ?_).congr ?_ (fun _ => Iff.rfl)
    · simp only [hval, ringVal, lt_irrefl, if_false, if_true]
    · intro G _ _
      rw [Mat.get_ok (by omega) (by omega), ok_bind]
  have fL : Fills (ArrGood (D3 d)) (fun A : Ten3 => A.v)
      (fun x => False ∨ ((∃ i, i < d.cells ∧ ∃ j, i ≤ j ∧ j < i + (d.cells - 1 - i) ∧ x = (i, j + 1, h)) ∨
        ∃ i, i < d.cells ∧ x = (i, i, h))) (fun G => loop (fun i G => loopFrom (i + 1) (fun j (G : Ten3) => do
    let p ← G.get (i, j, h)
    let vi ← d.vol.get i
    let vj ← d.vol.get j
    let a ← fdiv vi vj
    let si ← d.tot.get h i
    let sj ← d.tot.get h j
    let b ← fdiv si sj
    G.set (j, i, h) (p * a * b)) (d.cells - (i + 1)) G) d.cells G)
      (fun x => ∃ i, i < d.cells ∧ ∃ j, i + 1 ≤ j ∧ j < i + 1 + (d.cells - (i + 1)) ∧ x = (j, i, h)) val := by
    refine Fills.loop (fun i hi => Fills.loopFrom (S := fun j x => x = (j, i, h)) (fun j hij hj => ?_))
    have hj' : j < d.cells := by omega
    refine (Fills.arrSet (p := (j, i, h)) (a := val (j, i, h)) ⟨hj', hi, hh'⟩ rfl).congr ?_ (fun _ => Iff.rfl)
    intro G gG kn
    have hd : G.dom (i, j, h) := by rw [show G.dom = D3 d from gG]; exact ⟨hi, hj', hh'⟩
    rw [Arr.get_ok hd, ok_bind, Vec.get_ok (by omega), ok_bind, Vec.get_ok (by omega), ok_bind, fdiv_ok (hV j hj'), ok_bind,
      Mat.get_ok (by omega) (by omega), ok_bind, Mat.get_ok (by omega) (by omega), ok_bind, fdiv_ok (ht h hh' j hj').ne', ok_bind,
      kn (i, j, h) (Or.inl (Or.inl (Or.inr (Or.inl ⟨i, hi, j - 1, by omega, by omega, by rw [show j - 1 + 1 = j by omega]⟩))))]
    congr 1
    simp only [hval, ringVal]
    rw [if_pos (by omega), if_neg (by omega), if_neg (by omega)]
  have fA := (fU.seq fD).seq fL
  have h0 : G.dom (0, 0, h) := by rw [hG]; exact ⟨hc, hc, hh'⟩
  obtain ⟨G1, e1, d1, v1⟩ : ∃ G1, G.set (0, 0, h) (C.1.m 0 0) = ok G1 ∧ G1.dom = G.dom ∧ ∀ x, x ≠ (0, 0, h) → G1.v x = G.v x :=
    ⟨_, Arr.set_ok h0, rfl, fun x hx => if_neg hx⟩
  unfold roundGroup
  rw [Mat.get_ok (by omega) (by omega), ok_bind, e1, ok_bind]
  obtain ⟨G', e', g', v'⟩ := fA G1 (d1.trans hG) (fun _ h => h.elim)
  refine ⟨G', ?_, g', ?_, ?_⟩
  · simpa only [bind_assoc] using e'
  · intro i j hi hj
    refine (v' (i, j, h)).1 ?_
    rcases lt_trichotomy i j with hij | rfl | hij
    · exact Or.inl (Or.inl ⟨i, hi, j - 1, by omega, by omega, by rw [show j - 1 + 1 = j by omega]⟩)
    · exact Or.inl (Or.inr ⟨i, hi, rfl⟩)
    · exact Or.inr ⟨j, hj, i, by omega, by omega, rfl⟩
  · intro x hx
    refine ((v' x).2 ?_).trans ?_
    · rintro ((⟨i, hi, j, _, hj, rfl⟩ | ⟨i, hi, rfl⟩) | ⟨i, hi, j, _, hj, rfl⟩)
      · exact hx ⟨hi, by show j + 1 < d.cells; omega, rfl⟩
      · exact hx ⟨hi, hi, rfl⟩
      · exact hx ⟨by show j < d.cells; omega, hi, rfl⟩
    · exact v1 x (fun h' => hx (by rw [h']; exact ⟨hc, hc, rfl⟩))

/-- the ray terms are flights -/
theorem ray1_hit (d : Data) (K : ℝ → ℝ) (h : Nat) (z : ℝ) {i j : Nat} (hj : 0 < j) :
    ray1 d K h z i (j - 1) - ray1 d K h z i j = rayHit d K h z i j := by
  unfold ray1 hh rayHit hop
  rw [show j - 1 + 1 = j by omega]
  simp only [sub_neg_eq_add]
  ring

theorem ray2_out (d : Data) (K : ℝ → ℝ) (h : Nat) (z : ℝ) (i : Nat) : ray2 d K h z i = rayOut d K h z i := by
  unfold ray2 hh rayOut leave hop
  simp only [sub_neg_eq_add, sub_self]
  rw [add_comm (halfPath d h z i) (halfPath d h z (i + 1))]
  ring

theorem roundCPs_ok (wf : WellFormed d) (mesh : RoundMesh d) (hV : ∀ i, i < d.cells → d.vol.v i ≠ 0)
    (ht : ∀ h, h < d.energies → ∀ i, i < d.cells → 0 < d.tot.m h i) (hc : 0 < d.cells) :
    ∃ G, (roundTracks d >>= roundCPs d R) = ok G ∧ G.dom = D3 d ∧
      ∀ h i j, h < d.energies → i < d.cells → j < d.cells →
        G.v (i, j, h) = roundProb d R.K R.pre rays (zray d) (wray d R) h i j := by
  classical
  obtain ⟨Z, eZ, z1, z2, z3, z4⟩ := roundTracks_ok wf mesh
  have tr : Tracks d Z := ⟨z1, z2, z3, z4⟩
  rw [eZ, ok_bind]
  have key : Fills (ArrGood (D3 d)) (fun A : Ten3 => A.v) (fun _ => False) (fun G => loop (fun h G => do
    let C ← chordSets d R Z.1 Z.2 h
    let S ← ringSums d C
    roundGroup d h S G) d.energies G) (fun x => ∃ h, h < d.energies ∧ (x.1 < d.cells ∧ x.2.1 < d.cells ∧ x.2.2 = h))
      (fun x => roundProb d R.K R.pre rays (zray d) (wray d R) x.2.2 x.1 x.2.1) := by
    refine Fills.loop (fun h hh' => ?_)
    intro G gG _
    obtain ⟨C, eC, gC, vC1, vC2⟩ := chordSets_ok (R := R) wf mesh hV ht tr hh'
    obtain ⟨S, eS, gS, vS1, vS2⟩ := ringSums_ok gC
    obtain ⟨G', eG, gG', vG, uG⟩ := roundGroup_ok wf hV ht hh' hc gS gG
    dsimp only
    rw [eC, ok_bind, eS, ok_bind]
    refine ⟨G', eG, gG', ?_⟩
    have hit : ∀ i j, i < j → j < d.cells → S.1.m i (j - 1) - S.1.m i j =
        R.pre / (d.vol.v i * d.tot.m h i) * chordSum rays (zray d) (wray d R) i (fun z => rayHit d R.K h z i j) := by
      intro i j hij hj
      rw [vS1 i (j - 1) (by omega) (by omega), vS1 i j (by omega) hj, ← sum_sub_distrib, chordSum, mul_sum]
      refine sum_congr rfl (fun m hm => ?_)
      have hm' : m ≤ i := by rw [mem_range] at hm; omega
      rw [vC1 m i (j - 1) hm' (by omega) (by omega), vC1 m i j hm' (by omega) hj, ← sub_mul, ← sum_sub_distrib, mul_comm]
      congr 1
      refine sum_congr rfl (fun k _ => ?_)
      rw [← sub_mul, ray1_hit d R.K h _ (by omega), mul_comm]
    have out : ∀ i, i < d.cells → S.2.m i i =
        R.pre / (d.vol.v i * d.tot.m h i) * chordSum rays (zray d) (wray d R) i (fun z => rayOut d R.K h z i) := by
      intro i hi
      rw [vS2 i hi, chordSum, mul_sum]
      refine sum_congr rfl (fun m hm => ?_)
      rw [vC2 m i (by rw [mem_range] at hm; omega) hi, mul_comm]
      congr 1
      exact sum_congr rfl (fun k _ => by rw [ray2_out, mul_comm])
    rintro ⟨i, j, h'⟩
    constructor
    · rintro ⟨hi, hj, hx⟩
      have hx' : h' = h := hx
      subst hx'
      refine (vG i j hi hj).trans ?_
      dsimp only at hi hj ⊢
      unfold ringVal roundProb
      rcases lt_trichotomy i j with hij | rfl | hij
      · rw [if_pos hij, if_pos hij, hit i j hij hj]
      · rw [if_neg (lt_irrefl _), if_pos rfl, if_neg (lt_irrefl _), if_pos rfl, out i hi]
      · rw [if_neg (by omega), if_neg (by omega), if_neg (by omega), if_neg (by omega), hit j i hij hi]
        have := hV i hi
        have := hV j hj
        have := (ht h' hh' i hi).ne'
        have := (ht h' hh' j hj).ne'
        field_simp
    · intro hx
      exact uG (i, j, h') hx
  obtain ⟨G, eG, gG, vG⟩ := key (Arr.zero3 d.cells d.cells d.energies) rfl (fun _ h => h.elim)
  refine ⟨G, eG, gG, ?_⟩
  intro h i j hh' hi hj
  exact (vG (i, j, h)).1 ⟨h, hh', hi, hj, rfl⟩

end

end Verif.CPM
