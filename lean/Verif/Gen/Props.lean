import Verif.Gen.Chain
import Verif.Gen.Parabola
import Verif.Input.RunLemmas

/-!
# Properties of the generator of cross sections
-/

namespace Verif.Gen

open Verif Input Finset

noncomputable section

/-! ### C104: from the window to the data of an input file -/

/-- **C104, partial.** A first click on the button, for files that belong together: the generator writes lines which, pasted into an input file, give for every material of the same name as a universe
all the data the solver asked for needs, and these are the constants of Serpent (with the corrections asked for) at the temperatures of the files, up to six digits of the coefficients.
*Missing:* names one of which is the beginning of another (false: `C104_false`), further clicks (`C107_false`), and names with capital letters or signs. -/
theorem C104_partial {lib : Lib} {py : Py} {disk : Disk} {o : Options} {G : Nat} {rows : List Row} {fs : List (ℝ × List Universe)} {names : List Text} (ha : Asks py disk rows fs)
    (hpy : Interpolates py) (hm : Matching o G fs names) (hp : Printable lib py o G fs names) (hu : ∀ w ∈ names, Usable w) (hpf : ∀ w ∈ names, ∀ w' ∈ names, w <+: w' → w = w') :
    ∃ d out T, generate py disk o [] rows = .done (d, out) ∧ ∀ lines, Pasted out lines → Tabled lib lines o G fs names T := by
  obtain ⟨d, rs, -, h1, h2, h3⟩ := generate_ok ha hpy hm
  exact ⟨d, _, dataOf lib py rs, h3, fun lines hl => tabled_ok hp hu hm.nodup hpf h1 h2 hl⟩

/-- **C104, partial.** Whatever tables an input file with the generated lines gives to its materials (of the same names as universes), they are Serpent's constants: the reader has no other choice. So all that is
proved of calculations with the tables of a file (C96–C100) speaks about Serpent's constants. *Missing:* as for `C104_partial`. -/
theorem C104_data_partial {lib : Lib} {py : Py} {disk : Disk} {o : Options} {G : Nat} {rows : List Row} {fs : List (ℝ × List Universe)} {names : List Text} (ha : Asks py disk rows fs)
    (hpy : Interpolates py) (hm : Matching o G fs names) (hp : Printable lib py o G fs names) (hu : ∀ w ∈ names, Usable w) (hpf : ∀ w ∈ names, ∀ w' ∈ names, w <+: w' → w = w')
    {d : List (ℝ × Option Text)} {out lines : List Text} (hg : generate py disk o [] rows = .done (d, out)) (hl : Pasted out lines) {rs : List Region} (hrs : ∀ q ∈ rs, q.mat ∈ names) {T : Tables}
    (hT : TableFile lib lines rs G T) :
    (∀ q ∈ rs, ∀ e, e < G → Near (points fs q.mat (fun u => wanted o (chosen o u) .ni e)) (T.nu e q.mat) ∧ Near (points fs q.mat (fun u => wanted o (chosen o u) .chi e)) (T.chi e q.mat) ∧
      Near (points fs q.mat (fun u => wanted o (chosen o u) .fission e)) (T.fiss e q.mat) ∧ Near (points fs q.mat (fun u => wanted o (chosen o u) .total e)) (T.tot e q.mat) ∧
      ∀ f, f < G → Near (points fs q.mat (fun u => wantedScatt o G (chosen o u) e f)) (T.scatt e f q.mat)) ∧
    (o.solver = .diffusion → DiffFile lib lines rs G T → ∀ q ∈ rs, ∀ e, e < G → Near (points fs q.mat (fun u => wanted o (chosen o u) .diffCoeff e)) (T.diff e q.mat)) := by
  obtain ⟨d', out', T', h1, h2⟩ := C104_partial ha hpy hm hp hu hpf
  rw [hg] at h1
  cases h1
  have hD := h2 lines hl
  obtain ⟨hF, hF'⟩ := hD.file rs hrs
  refine ⟨fun q hq e he => ⟨near_same (law_unique (hF.nu q hq e he) (hT.nu q hq e he)) (hD.nu _ (hrs q hq) e he), near_same (law_unique (hF.chi q hq e he) (hT.chi q hq e he)) (hD.chi _ (hrs q hq) e he),
    near_same (law_unique (hF.fiss q hq e he) (hT.fiss q hq e he)) (hD.fiss _ (hrs q hq) e he), near_same (law_unique (hF.tot q hq e he) (hT.tot q hq e he)) (hD.tot _ (hrs q hq) e he),
    fun f hf => near_same (law_unique (hF.scatt q hq e f he hf) (hT.scatt q hq e f he hf)) (hD.scatt _ (hrs q hq) e f he hf)⟩,
    fun hs hd q hq e he => near_same (law_unique (hF' hs q hq e he) (hd q hq e he)) (hD.diff hs _ (hrs q hq) e he)⟩

/-- **C104, partial.** There are such input files: if the names of the universes are of ASCII characters and the lines are not too many, the generated lines alone, or among other lines that do not speak of
materials, can be stored. *Missing:* as for `C104_partial`. -/
theorem C104_stored_partial {lib : Lib} {py : Py} {disk : Disk} {o : Options} {G : Nat} {rows : List Row} {fs : List (ℝ × List Universe)} {names : List Text} (ha : Asks py disk rows fs)
    (hpy : Interpolates py) (hm : Matching o G fs names) (hp : Printable lib py o G fs names) (hascii : ∀ w ∈ names, ∀ c ∈ w, c.toNat < 128) {pre post : List Text}
    (hsil : ∀ m ∈ active pre ++ active post, ¬ "material".toList <:+: small m) (hlen : pre.length + names.length * (3 + 6 * G + G * G) + post.length ≤ 4294967296) :
    ∃ d out mid, generate py disk o [] rows = .done (d, out) ∧ Stored out mid ∧ Pasted out (pre ++ mid ++ post) := by
  obtain ⟨d, rs, -, h2, h3, h4⟩ := generate_ok ha hpy hm
  have hin : ∀ r ∈ rs, r.matNumber ∈ names := fun r h => h2 ▸ List.mem_map_of_mem h
  have hn : ∀ r ∈ rs, AllNeat py o.solver G r := fun r h =>
    ⟨fun k _ e he => neat_of (right_tab (h3 r h) k he) ((hp _ (hin r h)).1 k e _ he (right_tab (h3 r h) k he)),
      fun e f he hf => neat_of (right_sca (h3 r h) he hf) ((hp _ (hin r h)).2 e f _ he hf (right_sca (h3 r h) he hf))⟩
  obtain ⟨mid, hmid⟩ := stored_some (pages py o.solver G pad rs) (fun l hl c hc => pages_ascii hn (fun r hr => hascii _ (hin r hr)) hl hc)
  refine ⟨d, _, mid, h4, hmid, pre, mid, post, rfl, hmid, hsil, ?_⟩
  have h5 : mid.length = (pages py o.solver G pad rs).length := hmid.length_eq.symm
  have h6 := pages_length (py := py) (solver := o.solver) (E := G) (p := pad) rs
  have h7 : rs.length = names.length := by rw [← h2, List.length_map]
  rw [h7] at h6
  have h8 : names.length * (3 + (G * 6 + G * G)) = names.length * (3 + 6 * G + G * G) := by ring
  simp only [List.length_append]
  omega

/-! ### C105: balances -/

/-- **C105.** The polynomials keep the balances of Serpent's constants at *every* temperature, with and without transport correction: the total cross section less all scattering out of a group is the
polynomial through Serpent's total cross sections less all scattering; and if the spectrum of every universe adds up to `s`, so do the polynomials of the spectrum. -/
theorem C105 {py : Py} {o : Options} {G : Nat} {fs : List (ℝ × List Universe)} {names : List Text} (hpy : Interpolates py) (hm : Matching o G fs names) :
    ∃ rs, crossSections py o fs = .done rs ∧ rs.map Result.matNumber = names ∧ ∀ r ∈ rs,
      (∀ e, e < G → ∃ (t : Coefs) (s : Nat → Coefs) (row : List Coefs) (a : List ℝ), (r.xs .total)[e]? = some t ∧ r.scattMatrix0[e]? = some row ∧ (∀ f, f < G → row[f]? = some (s f)) ∧
        Fitted (points fs r.matNumber (fun u => ((chosen o u).xs .total).v e - ∑ f ∈ range G, scattOf G (chosen o u) e f)) a ∧
        ∀ x, along t.list x - ∑ f ∈ range G, along (s f).list x = along a x) ∧
      ∃ X : Nat → Coefs, (∀ e, e < G → (r.xs .chi)[e]? = some (X e)) ∧
        ∀ s, (∀ q ∈ fs, ∀ u ∈ q.2, ∑ e ∈ range G, ((chosen o u).xs .chi).v e = s) → ∀ x, ∑ e ∈ range G, along (X e).list x = s := by
  obtain ⟨rs, h1, h2, h3⟩ := cross_ok hpy hm
  refine ⟨rs, h1, h2, fun r hr => ?_⟩
  have hR := h3 r hr
  have hw : r.matNumber ∈ names := h2 ▸ List.mem_map_of_mem hr
  have hfind : ∀ q ∈ fs, ∃ u ∈ q.2, q.2.find? (fun u => u.name = r.matNumber) = some u := fun q hq => find_ok ((hm.same q hq).symm.subset hw)
  have hlen : fs ≠ [] := by
    rintro rfl
    simpa using hm.files
  refine ⟨fun e he => ?_, ?_⟩
  · obtain ⟨t, ht, hft⟩ := hR.tables .total e he
    obtain ⟨row, hrow⟩ : ∃ row, r.scattMatrix0[e]? = some row := ⟨_, (hR.scatt e e he he).choose_spec.choose_spec.1⟩
    have hs : ∀ f, f < G → ∃ c, row[f]? = some c ∧ Fitted (points fs r.matNumber (fun u => wantedScatt o G (chosen o u) e f)) c.list := fun f hf => by
      obtain ⟨l, c, hl, hc, hfit⟩ := hR.scatt e f he hf
      rw [hrow] at hl
      cases hl
      exact ⟨c, hc, hfit⟩
    haveI : Nonempty Coefs := ⟨.scalar 0⟩
    choose! s hs1 hs2 using hs
    set F : Universe → ℝ := fun u => ((chosen o u).xs .total).v e - ∑ f ∈ range G, scattOf G (chosen o u) e f with hF
    have ha := coefs_fitted (xs := fs.map Prod.fst) (ys := (points fs r.matNumber F).map Prod.snd) hm.temps (by simp [points]) (by simpa using hlen)
    rw [zip_points] at ha
    refine ⟨t, s, row, _, ht, hrow, hs1, ha, fun x => ?_⟩
    have := combine hm.temps (w := r.matNumber) (Finset.range (G + 1)) (fun j => if j = G then 1 else -1)
      (fun j u => if j = G then wanted o (chosen o u) .total e else wantedScatt o G (chosen o u) e j) (fun j => if j = G then t.list else (s j).list) ?_
      (y := fun q => ((q.2.find? (fun u => u.name = r.matNumber)).map F).getD 0) (d := coefs (fs.map Prod.fst) ((points fs r.matNumber F).map Prod.snd)) (by simpa [points] using ha.few)
      (fun q hq => ha.through (q.1, _) (List.mem_map.2 ⟨q, hq, rfl⟩)) ?_ x
    · rw [← this, Finset.sum_range_succ]
      simp only [if_true, one_mul]
      have : ∀ f ∈ range G, (if f = G then (1 : ℝ) else -1) * along (if f = G then t.list else (s f).list) x = -along (s f).list x := fun f hf => by
        rw [if_neg (by have := mem_range.1 hf; omega), if_neg (by have := mem_range.1 hf; omega)]
        ring
      rw [Finset.sum_congr rfl this, Finset.sum_neg_distrib]
      ring
    · intro j hj
      by_cases h : j = G
      · simpa only [h, if_true] using hft
      · simpa only [h, if_false] using hs2 j (by have := mem_range.1 hj; omega)
    · intro q hq
      obtain ⟨u, -, hu⟩ := hfind q hq
      simp only [hu, Option.map_some, Option.getD_some]
      rw [Finset.sum_range_succ]
      simp only [if_true, one_mul]
      have : ∀ f ∈ range G, (if f = G then (1 : ℝ) else -1) * (if f = G then wanted o (chosen o u) .total e else wantedScatt o G (chosen o u) e f) = -wantedScatt o G (chosen o u) e f :=
        fun f hf => by
        rw [if_neg (by have := mem_range.1 hf; omega), if_neg (by have := mem_range.1 hf; omega)]
        ring
      rw [Finset.sum_congr rfl this, Finset.sum_neg_distrib, hF]
      by_cases hc : o.solver = .transport ∧ o.transport = true
      · have h1 : wanted o (chosen o u) .total e = ((chosen o u).xs .total).v e - (chosen o u).scatt1.v e := by simp only [wanted, hc.1, hc.2]
        have h2 : ∀ f ∈ range G, wantedScatt o G (chosen o u) e f = scattOf G (chosen o u) e f - (if e = f then (chosen o u).scatt1.v e else 0) := fun f _ => by
          by_cases hef : e = f
          · simp [wantedScatt, hc.1, hc.2, hef]
          · simp [wantedScatt, hef]
        rw [h1, Finset.sum_congr rfl h2, Finset.sum_sub_distrib, Finset.sum_ite_eq (range G) e, if_pos (mem_range.2 he)]
        ring
      · have h1 : wanted o (chosen o u) .total e = ((chosen o u).xs .total).v e := by
          unfold wanted
          cases hs : o.solver <;> cases ht : o.transport <;> simp_all
        have h2 : ∀ f ∈ range G, wantedScatt o G (chosen o u) e f = scattOf G (chosen o u) e f := fun f _ => if_neg (fun h => hc ⟨h.1, h.2.1⟩)
        rw [h1, Finset.sum_congr rfl h2]
        ring
  · have hx : ∀ e, e < G → ∃ c, (r.xs .chi)[e]? = some c ∧ Fitted (points fs r.matNumber (fun u => wanted o (chosen o u) .chi e)) c.list := fun e he => hR.tables .chi e he
    haveI : Nonempty Coefs := ⟨.scalar 0⟩
    choose! X hX1 hX2 using hx
    refine ⟨X, hX1, fun s hs x => ?_⟩
    have hpos : 1 ≤ fs.length := by rcases hm.files with h | h | h <;> omega
    have := combine hm.temps (w := r.matNumber) (Finset.range G) (fun _ => 1) (fun e u => wanted o (chosen o u) .chi e) (fun e => (X e).list) (fun e he => hX2 e (mem_range.1 he))
      (y := fun _ => s) (d := [s]) (by simpa using hpos) (fun q _ => along_single s q.1) (fun q hq => ?_) x
    · simpa [along_single] using this
    · obtain ⟨u, hu', hu⟩ := hfind q hq
      simp only [hu, Option.map_some, Option.getD_some, one_mul]
      exact hs q hq u hu'

/-! ### C106: between the temperatures -/

theorem between' {p q : ℝ × ℝ} {c : List ℝ} (h : Fitted [p, q] c) {x : ℝ} (hx : min p.1 q.1 ≤ x) (hx' : x ≤ max p.1 q.1) : min p.2 q.2 ≤ along c x ∧ along c x ≤ max p.2 q.2 := by
  rcases le_total p.1 q.1 with hpq | hpq
  · rw [min_eq_left hpq] at hx
    rw [max_eq_right hpq] at hx'
    exact between h hx hx'
  · rw [min_eq_right hpq] at hx
    rw [max_eq_left hpq] at hx'
    rw [min_comm, max_comm]
    exact between (p := q) (q := p) ⟨h.some, h.few, fun r hr => h.through r (by simpa [or_comm] using hr)⟩ hx hx'

/-- **C106, partial.** With two Serpent files every constant that is generated lies, at every temperature between those of the files, between the constants of the two files. *Missing:* three files (false:
`C106_false`). -/
theorem C106_partial {py : Py} {o : Options} {G : Nat} {p q : ℝ × List Universe} {names : List Text} (hpy : Interpolates py) (hm : Matching o G [p, q] names) :
    ∃ rs, crossSections py o [p, q] = .done rs ∧ rs.map Result.matNumber = names ∧ ∀ r ∈ rs, ∃ u ∈ p.2, ∃ v ∈ q.2, u.name = r.matNumber ∧ v.name = r.matNumber ∧
      (∀ k e, e < G → ∃ c, (r.xs k)[e]? = some c ∧ ∀ x, min p.1 q.1 ≤ x → x ≤ max p.1 q.1 →
        min (wanted o (chosen o u) k e) (wanted o (chosen o v) k e) ≤ along c.list x ∧ along c.list x ≤ max (wanted o (chosen o u) k e) (wanted o (chosen o v) k e)) ∧
      ∀ e f, e < G → f < G → ∃ row c, r.scattMatrix0[e]? = some row ∧ row[f]? = some c ∧ ∀ x, min p.1 q.1 ≤ x → x ≤ max p.1 q.1 →
        min (wantedScatt o G (chosen o u) e f) (wantedScatt o G (chosen o v) e f) ≤ along c.list x ∧ along c.list x ≤ max (wantedScatt o G (chosen o u) e f) (wantedScatt o G (chosen o v) e f) := by
  obtain ⟨rs, h1, h2, h3⟩ := cross_ok hpy hm
  refine ⟨rs, h1, h2, fun r hr => ?_⟩
  have hR := h3 r hr
  have hw : r.matNumber ∈ names := h2 ▸ List.mem_map_of_mem hr
  obtain ⟨u, hu, hfu⟩ := find_ok ((hm.same p (by simp)).symm.subset hw)
  obtain ⟨v, hv, hfv⟩ := find_ok ((hm.same q (by simp)).symm.subset hw)
  refine ⟨u, hu, v, hv, by simpa using List.find?_some hfu, by simpa using List.find?_some hfv, fun k e he => ?_, fun e f he hf => ?_⟩
  · obtain ⟨c, hc, hfit⟩ := hR.tables k e he
    refine ⟨c, hc, fun x hx hx' => ?_⟩
    simp only [points, List.map_cons, List.map_nil, hfu, hfv, Option.map_some, Option.getD_some] at hfit
    exact between' hfit hx hx'
  · obtain ⟨row, c, hrow, hc, hfit⟩ := hR.scatt e f he hf
    refine ⟨row, c, hrow, hc, fun x hx hx' => ?_⟩
    simp only [points, List.map_cons, List.map_nil, hfu, hfv, Option.map_some, Option.getD_some] at hfit
    exact between' hfit hx hx'

/-- **C106, three files.** With three Serpent files, in any order, a constant that is generated lies between those of the neighbouring files at every temperature just if the parabola through the three values
does not turn between them. -/
theorem C106_three {py : Py} {o : Options} {G : Nat} {fs : List (ℝ × List Universe)} {p q r : ℝ × List Universe} {names : List Text} (hpy : Interpolates py) (hm : Matching o G fs names)
    (hfs : fs.Perm [p, q, r]) (hpq : p.1 < q.1) (hqr : q.1 < r.1) :
    ∃ rs, crossSections py o fs = .done rs ∧ rs.map Result.matNumber = names ∧ ∀ m ∈ rs, ∃ u ∈ p.2, ∃ v ∈ q.2, ∃ w ∈ r.2, u.name = m.matNumber ∧ v.name = m.matNumber ∧ w.name = m.matNumber ∧
      (∀ k e, e < G → ∃ c, (m.xs k)[e]? = some c ∧ (Tame (p.1, wanted o (chosen o u) k e) (q.1, wanted o (chosen o v) k e) (r.1, wanted o (chosen o w) k e) ↔
        ∀ x, (p.1 ≤ x → x ≤ q.1 → Amid (wanted o (chosen o u) k e) (wanted o (chosen o v) k e) (along c.list x)) ∧
          (q.1 ≤ x → x ≤ r.1 → Amid (wanted o (chosen o v) k e) (wanted o (chosen o w) k e) (along c.list x)))) ∧
      ∀ e f, e < G → f < G → ∃ row c, m.scattMatrix0[e]? = some row ∧ row[f]? = some c ∧
        (Tame (p.1, wantedScatt o G (chosen o u) e f) (q.1, wantedScatt o G (chosen o v) e f) (r.1, wantedScatt o G (chosen o w) e f) ↔
        ∀ x, (p.1 ≤ x → x ≤ q.1 → Amid (wantedScatt o G (chosen o u) e f) (wantedScatt o G (chosen o v) e f) (along c.list x)) ∧
          (q.1 ≤ x → x ≤ r.1 → Amid (wantedScatt o G (chosen o v) e f) (wantedScatt o G (chosen o w) e f) (along c.list x))) := by
  obtain ⟨rs, h1, h2, h3⟩ := cross_ok hpy hm
  refine ⟨rs, h1, h2, fun m hr => ?_⟩
  have hR := h3 m hr
  have hw : m.matNumber ∈ names := h2 ▸ List.mem_map_of_mem hr
  have hp : p ∈ fs := hfs.symm.subset (by simp)
  have hq : q ∈ fs := hfs.symm.subset (by simp)
  have hr' : r ∈ fs := hfs.symm.subset (by simp)
  obtain ⟨u, hu, hfu⟩ := find_ok ((hm.same p hp).symm.subset hw)
  obtain ⟨v, hv, hfv⟩ := find_ok ((hm.same q hq).symm.subset hw)
  obtain ⟨w, hw', hfw⟩ := find_ok ((hm.same r hr').symm.subset hw)
  have key : ∀ (F : Universe → ℝ) (c : List ℝ), Fitted (points fs m.matNumber F) c → (Tame (p.1, F u) (q.1, F v) (r.1, F w) ↔
      ∀ x, (p.1 ≤ x → x ≤ q.1 → Amid (F u) (F v) (along c x)) ∧ (q.1 ≤ x → x ≤ r.1 → Amid (F v) (F w) (along c x))) := by
    intro F c hF
    have at' : ∀ {y : ℝ × List Universe} {z : Universe}, y ∈ fs → y.2.find? (fun u => u.name = m.matNumber) = some z → along c y.1 = F z := fun {y z} hy hz => by
      have := hF.through (y.1, F z) (List.mem_map.2 ⟨y, hy, by simp [hz]⟩)
      exact this
    refine tame_iff (p := (p.1, F u)) (q := (q.1, F v)) (r := (r.1, F w)) hpq hqr ?_ (at' hp hfu) (at' hq hfv) (at' hr' hfw)
    have := hF.few
    rw [points, List.length_map, hfs.length_eq] at this
    exact this
  refine ⟨u, hu, v, hv, w, hw', by simpa using List.find?_some hfu, by simpa using List.find?_some hfv, by simpa using List.find?_some hfw, fun k e he => ?_, fun e f he hf => ?_⟩
  · obtain ⟨c, hc, hfit⟩ := hR.tables k e he
    exact ⟨c, hc, key (fun z => wanted o (chosen o z) k e) c.list hfit⟩
  · obtain ⟨row, c, hrow, hc, hfit⟩ := hR.scatt e f he hf
    exact ⟨row, c, hrow, hc, key (fun z => wantedScatt o G (chosen o z) e f) c.list hfit⟩

/-! ### C107: the files that are used -/

/-- **C107, partial.** A first click uses the files asked for, each with its temperature. *Missing:* files that are there and not used (false: `C107_false`). -/
theorem C107_partial {py : Py} {disk : Disk} {rows : List Row} {fs : List (ℝ × List Universe)} (h : Asks py disk rows fs) :
    ∃ d fl, request py [] rows = .done d ∧ prepareSerpentFiles disk d = .done fl ∧ readFiles disk fl = fs := prepare_ok h

/-- **C107.** The generator leaves with the message that a file is missing only if the file the message names is not there. -/
theorem C107_message {py : Py} {disk : Disk} {o : Options} {r1 r2 r3 : Row} {t1 t2 t3 : ℝ} (w1 : Warm py 0 r1 t1) (w2 : Warm py 1 r2 t2) (w3 : Warm py 2 r3 t3) (hd : [t1, t2, t3].Nodup)
    {m : Missing} (h : generate py disk o [] [r1, r2, r3] = .leaves m) :
    (m = .first ∧ NotThere disk r1) ∨ (m = .second ∧ NotThere disk r2) ∨ (m = .third ∧ NotThere disk r3) := by
  unfold generate generator at h
  rw [request_ok w1 w2 w3 hd, done_bind] at h
  have hq : ∀ fs : List (ℝ × Text), Quiet (crossSections py o (readFiles disk fs) >>= fun rs => printAlmostOutput py o.solver rs) := fun fs =>
    quiet_bind (quiet_cross _ _ _) (fun _ => quiet_print _ _ _)
  have hl : prepareSerpentFiles disk [(t1, r1.file), (t2, r2.file), (t3, r3.file)] = .leaves m := by
    cases hp : prepareSerpentFiles disk [(t1, r1.file), (t2, r2.file), (t3, r3.file)] with
    | done fs =>
      rw [hp, done_bind] at h
      exact absurd h (quiet_bind (hq fs) (fun _ => quiet_done _) m)
    | leaves m' =>
      rw [hp] at h
      cases h
      rfl
    | fails e => rw [hp] at h; cases h
    | nonfinite => rw [hp] at h; cases h
  unfold prepareSerpentFiles at hl
  simp only [item, List.getElem?_cons_zero, List.getElem?_cons_succ, done_bind] at hl
  cases h1 : r1.file with
  | none => simp [h1, pathExists] at hl
  | some f1 =>
    cases hd1 : disk f1 with
    | none =>
      simp [h1, pathExists, hd1] at hl
      exact .inl ⟨hl.symm, f1, h1, .inr hd1⟩
    | some us1 =>
      by_cases h0 : f1 = []
      · simp [h1, pathExists, hd1, given, h0] at hl
        refine .inl ⟨?_, f1, h1, .inl h0⟩
        subst h0
        simpa [hd1] using hl.symm
      · cases h2 : r2.file with
        | none => simp [h1, hd1, h0, pathExists, given, h2] at hl
        | some f2 =>
          by_cases h0' : f2 = []
          · simp [h1, hd1, h0, pathExists, given, h2, h0'] at hl
          · cases hd2 : disk f2 with
            | none =>
              simp [h1, hd1, h0, pathExists, given, h2, h0', hd2] at hl
              exact .inr (.inl ⟨hl.symm, f2, h2, .inr hd2⟩)
            | some us2 =>
              cases h3 : r3.file with
              | none => simp [h1, hd1, h0, pathExists, given, h2, h0', hd2, h3] at hl
              | some f3 =>
                cases hd3 : disk f3 with
                | none =>
                  by_cases h0'' : f3 = []
                  · simp [h1, hd1, h0, pathExists, given, h2, h0', hd2, h3, h0''] at hl
                  · simp [h1, hd1, h0, pathExists, given, h2, h0', hd2, h3, h0'', hd3] at hl
                    exact .inr (.inr ⟨hl.symm, f3, h3, .inr hd3⟩)
                | some us3 =>
                  by_cases h0'' : f3 = []
                  · simp [h1, hd1, h0, pathExists, given, h2, h0', hd2, h3, h0''] at hl
                  · simp [h1, hd1, h0, pathExists, given, h2, h0', hd2, h3, h0'', hd3] at hl

/-- **C107 fails.** A third file is not used, and nothing is said about it, if none is given in the second row. -/
theorem C107_third_false {py : Py} {disk : Disk} {r1 r2 r3 : Row} {t1 t2 t3 : ℝ} {u1 u3 : List Universe} (w1 : Warm py 0 r1 t1) (w2 : Warm py 1 r2 t2) (w3 : Warm py 2 r3 t3)
    (hd : [t1, t2, t3].Nodup) (h1 : HasFile disk r1 u1) (h2 : NoFile r2) (_h3 : HasFile disk r3 u3) :
    ∃ d fl, request py [] [r1, r2, r3] = .done d ∧ prepareSerpentFiles disk d = .done fl ∧ readFiles disk fl = [(0, u1)] := by
  refine ⟨_, [(0, r1.file.getD [])], request_ok w1 w2 w3 hd, ?_, ?_⟩
  · unfold prepareSerpentFiles
    simp only [item, List.getElem?_cons_zero, List.getElem?_cons_succ, done_bind, (hasFile h1).1, (hasFile h1).2.1, noFile h2, Bool.and_self, if_true, Bool.not_false]
  · simp [readFiles, (hasFile h1).2.2]

/-- **C107 fails.** If two rows have the same temperature (two empty ones in degrees Celsius, for instance), the generator ends with an exception. -/
theorem C107_equal_false {py : Py} {disk : Disk} {o : Options} {r1 r2 r3 : Row} {t1 t2 t3 : ℝ} (w1 : Warm py 0 r1 t1) (w2 : Warm py 1 r2 t2) (w3 : Warm py 2 r3 t3)
    (hd : ¬ [t1, t2, t3].Nodup) : generate py disk o [] [r1, r2, r3] = .fails .index := by
  have hr : ∃ d, request py [] [r1, r2, r3] = .done d ∧ d.length ≤ 2 := by
    unfold request
    simp only [rowTemps, rowTemp_ok w1, rowTemp_ok w2, rowTemp_ok w3, done_bind, Nat.zero_add, Nat.reduceAdd, List.zip_cons_cons, List.zip_nil_right, List.foldl_cons, List.foldl_nil]
    refine ⟨_, rfl, ?_⟩
    rw [setKey_new (d := []) (by simp), List.nil_append]
    by_cases h12 : t2 = t1
    · refine (setKey_le _ _ _).trans ?_
      rw [setKey_old (d := [(t1, r1.file)]) (by simp [h12])]
      simp
    · rw [setKey_new (d := [(t1, r1.file)]) (by simpa using h12), List.singleton_append, setKey_old (d := [(t1, r1.file), (t2, r2.file)]) ?_]
      · simp
      · by_contra hk
        simp only [List.map_cons, List.map_nil, List.mem_cons, List.not_mem_nil, or_false, not_or] at hk
        exact hd (by simpa using ⟨⟨fun h => h12 h.symm, fun h => hk.1 h.symm⟩, fun h => hk.2 h.symm⟩)
  obtain ⟨d, h1, h2⟩ := hr
  unfold generate generator
  rw [h1, done_bind]
  have h3 : item d 2 = .fails .index := by
    unfold item
    rw [List.getElem?_eq_none h2]
  have h4 : prepareSerpentFiles disk d = .fails .index := by
    unfold prepareSerpentFiles
    rw [h3]
    unfold item
    cases d[0]? <;> cases d[1]? <;> rfl
  rw [h4]
  rfl

/-- **C107 fails.** The window keeps the files of the first click: a second click with other temperatures and any files writes what the first one wrote. -/
theorem C107_again_false {py : Py} {disk : Disk} {o : Options} {r1 r2 r3 s1 s2 s3 : Row} {t1 t2 t3 x1 x2 x3 : ℝ} (w1 : Warm py 0 r1 t1) (w2 : Warm py 1 r2 t2) (w3 : Warm py 2 r3 t3)
    (v1 : Warm py 0 s1 x1) (v2 : Warm py 1 s2 x2) (v3 : Warm py 2 s3 x3) (hd : [t1, t2, t3, x1, x2, x3].Nodup) {d : List (ℝ × Option Text)} {out : List Text}
    (h : generate py disk o [] [r1, r2, r3] = .done (d, out)) : ∃ d', generate py disk o d [s1, s2, s3] = .done (d', out) := by
  have hd3 : [t1, t2, t3].Nodup := by
    simp only [List.nodup_cons, List.mem_cons, List.not_mem_nil, or_false, not_or] at hd ⊢
    tauto
  simp only [List.nodup_cons, List.mem_cons, List.not_mem_nil, or_false, not_or] at hd
  have hreq : request py [(t1, r1.file), (t2, r2.file), (t3, r3.file)] [s1, s2, s3] =
      .done [(t1, r1.file), (t2, r2.file), (t3, r3.file), (x1, s1.file), (x2, s2.file), (x3, s3.file)] := by
    unfold request
    simp only [rowTemps, rowTemp_ok v1, rowTemp_ok v2, rowTemp_ok v3, done_bind, Nat.zero_add, Nat.reduceAdd, List.zip_cons_cons, List.zip_nil_right, List.foldl_cons, List.foldl_nil]
    rw [setKey_new (d := [(t1, r1.file), (t2, r2.file), (t3, r3.file)]) (by simp only [List.map_cons, List.map_nil, List.mem_cons, List.not_mem_nil, or_false, not_or]; tauto),
      setKey_new (d := [(t1, r1.file), (t2, r2.file), (t3, r3.file)] ++ [(x1, s1.file)])
        (by simp only [List.cons_append, List.nil_append, List.map_cons, List.map_nil, List.mem_cons, List.not_mem_nil, or_false, not_or]; tauto),
      setKey_new (d := [(t1, r1.file), (t2, r2.file), (t3, r3.file)] ++ [(x1, s1.file)] ++ [(x2, s2.file)])
        (by simp only [List.cons_append, List.nil_append, List.map_cons, List.map_nil, List.mem_cons, List.not_mem_nil, or_false, not_or]; tauto)]
    rfl
  unfold generate at h ⊢
  rw [request_ok w1 w2 w3 hd3, done_bind] at h
  cases hg : generator py disk o [(t1, r1.file), (t2, r2.file), (t3, r3.file)] with
  | done out' =>
    rw [hg, done_bind] at h
    cases h
    rw [hreq, done_bind]
    have hg' : generator py disk o [(t1, r1.file), (t2, r2.file), (t3, r3.file), (x1, s1.file), (x2, s2.file), (x3, s3.file)] = .done out := hg
    rw [hg', done_bind]
    exact ⟨_, rfl⟩
  | leaves m => rw [hg] at h; cases h
  | fails e => rw [hg] at h; cases h
  | nonfinite => rw [hg] at h; cases h

/-! ### examples -/

/-- Constants of one group that are all `x`. -/
def flat (x : ℝ) : Consts := ⟨fun _ => ⟨1, fun _ => x⟩, ⟨1, fun _ => x⟩, ⟨1, fun _ => x⟩, ⟨1, fun _ => x⟩⟩

/-- A universe with such constants. -/
def uni (w : String) (x : ℝ) : Universe := ⟨w.toList, flat x, flat x⟩

theorem uni_name (w : String) (x : ℝ) : (uni w x).name = w.toList := rfl

/-- A library that interpolates; it writes `1.0` for one and `9.0` for all other numbers. -/
def demoPy : Py := ⟨fun xs ys => (coefs xs ys).reverse, coefs, fun x => open Classical in if x = 1 then "1.0".toList else "9.0".toList,
  fun s => if s = "1".toList then some 1 else some 2⟩

theorem demoPy_fits : Interpolates demoPy where
  lagrange xs ys hn hl h0 := by
    show Fitted _ (coefs xs ys).reverse.reverse
    rw [List.reverse_reverse]
    exact coefs_fitted hn hl h0
  polyfit xs ys hn hl hl' := coefs_fitted hn (hl.trans hl'.symm) (by rintro rfl; simp at hl)

theorem demo_float : demoPy.float "1".toList = some 1 ∧ demoPy.float "2".toList = some 2 := by
  constructor
  · show (if "1".toList = "1".toList then some 1 else some 2) = _
    rw [if_pos rfl]
  · show (if "2".toList = "1".toList then some 1 else some 2) = _
    rw [if_neg (by decide)]

theorem demo_one : demoPy.fmt 1 = "1.0".toList := if_pos rfl

theorem demo_nine : demoPy.fmt 9 = "9.0".toList := if_neg (by norm_num)

theorem written_one : Written wLib demoPy 1 := by
  refine ⟨by rw [demo_one]; decide, ?_, 1, ?_, by norm_num⟩
  · rw [demo_one]
    unfold Digit
    decide
  · rw [demo_one]
    show Outcome.ok _ = _
    rw [if_neg (by decide), if_neg (by decide)]

theorem written_nine : Written wLib demoPy 9 := by
  refine ⟨by rw [demo_nine]; decide, ?_, 9, ?_, by norm_num⟩
  · rw [demo_nine]
    unfold Digit
    decide
  · rw [demo_nine]
    show Outcome.ok _ = _
    rw [if_neg (by decide), if_pos rfl]

theorem fitted_one {t y : ℝ} {c : List ℝ} (h : Fitted [(t, y)] c) : c = [y] := by
  have h1 := h.few
  match c, h.some, h1 with
  | [a], _, _ =>
    have := h.through (t, y) (by simp)
    rw [along_single] at this
    simpa using this
  | _ :: _ :: _, _, h1 => simp at h1

theorem along_pair (a b x : ℝ) : along [a, b] x = a + b * x := by
  simp [along, Finset.sum_range_succ]

theorem fitted_two {c : List ℝ} (h : Fitted [(1, 2), (2, 3)] c) : c = [1, 1] := by
  have h1 := h.through (1, 2) (by simp)
  have h2 := h.through (2, 3) (by simp)
  have hf := h.few
  match c, h.some, hf with
  | [a], _, _ =>
    rw [along_single] at h1 h2
    norm_num at h1 h2
    linarith
  | [a, b], _, _ =>
    rw [along_pair] at h1 h2
    norm_num at h1 h2
    have hb : b = 1 := by linarith
    have ha : a = 1 := by linarith
    rw [ha, hb]
  | _ :: _ :: _ :: _, _, hf => simp at hf

/-- Two Serpent files: the constants are two at one degree and three at two degrees. The second one names the universes in another order. -/
def demoDisk : Disk := fun f => if f = "a".toList then some [uni "u" 2, uni "v" 2] else if f = "b".toList then some [uni "v" 3, uni "u" 3] else none

/-- Leakage correction, transport correction, diffusion. -/
def demoOptions : Options := ⟨true, true, .diffusion⟩

/-- The window with both files. -/
def demoRows : List Row := [⟨"1".toList, "C".toList, some "a".toList⟩, ⟨"2".toList, "C".toList, some "b".toList⟩, ⟨[], "K".toList, none⟩]

/-- The outputs asked for. -/
def demoFiles : List (ℝ × List Universe) := [(1, [uni "u" 2, uni "v" 2]), (2, [uni "v" 3, uni "u" 3])]

theorem demo_asks : Asks demoPy demoDisk demoRows demoFiles := by
  refine .two (t3 := ((2 : Nat) : ℝ) + 1 - 273.15) (.celsius (by decide) ?_ rfl (by norm_num)) (.celsius (by decide) ?_ rfl (by norm_num)) (.emptyKelvin rfl rfl) (by norm_num) ?_ ?_ (.inl rfl)
  · exact demo_float.1
  · exact demo_float.2
  · exact ⟨"a".toList, by decide, rfl, if_pos rfl⟩
  · exact ⟨"b".toList, by decide, rfl, (if_neg (by decide)).trans (if_pos rfl)⟩

theorem flat_complete (x : ℝ) : Complete 1 (flat x) := ⟨fun _ => rfl, rfl, rfl, rfl⟩

theorem flat_chosen (o : Options) (w : String) (x : ℝ) : chosen o (uni w x) = flat x := by
  unfold chosen uni
  split <;> rfl

theorem demo_matching : Matching demoOptions 1 demoFiles ["u".toList, "v".toList] where
  files := .inr (.inl rfl)
  temps := by simp [demoFiles]
  nonempty := by simp
  nodup := by decide
  first := rfl
  same q hq := by
    simp only [demoFiles, List.mem_cons, List.not_mem_nil, or_false] at hq
    rcases hq with rfl | rfl
    · exact List.Perm.refl _
    · exact List.Perm.swap _ _ _
  groups q hq u hu := by
    simp only [demoFiles, List.mem_cons, List.not_mem_nil, or_false] at hq
    rcases hq with rfl | rfl <;> simp only [List.mem_cons, List.not_mem_nil, or_false] at hu <;> rcases hu with rfl | rfl <;>
      exact ⟨rfl, by rw [flat_chosen]; exact flat_complete _⟩
  total _ h := by simp [demoOptions] at h

theorem wanted_flat {o : Options} (ho : o.transport = true ∧ o.solver = .diffusion) (x : ℝ) (k : Key) : wanted o (flat x) k 0 = x := by
  unfold wanted
  rw [ho.1, ho.2]
  cases k <;> rfl

theorem wantedScatt_flat {o : Options} (ho : o.transport = true ∧ o.solver = .diffusion) (x : ℝ) : wantedScatt o 1 (flat x) 0 0 = x := by
  unfold wantedScatt
  rw [ho.2, if_neg (by simp)]
  rfl

theorem demo_points {w : Text} (hw : w ∈ ["u".toList, "v".toList]) {F : Universe → ℝ} (hF : ∀ s x, F (uni s x) = x) : points demoFiles w F = [(1, 2), (2, 3)] := by
  simp only [List.mem_cons, List.not_mem_nil, or_false] at hw
  rcases hw with rfl | rfl
  · have h1 : [uni "u" 2, uni "v" 2].find? (fun u => u.name = "u".toList) = some (uni "u" 2) := rfl
    have h2 : [uni "v" 3, uni "u" 3].find? (fun u => u.name = "u".toList) = some (uni "u" 3) := rfl
    simp only [points, demoFiles, List.map_cons, List.map_nil, h1, h2, Option.map_some, Option.getD_some, hF]
  · have h1 : [uni "u" 2, uni "v" 2].find? (fun u => u.name = "v".toList) = some (uni "v" 2) := rfl
    have h2 : [uni "v" 3, uni "u" 3].find? (fun u => u.name = "v".toList) = some (uni "v" 3) := rfl
    simp only [points, demoFiles, List.map_cons, List.map_nil, h1, h2, Option.map_some, Option.getD_some, hF]

theorem demo_printable : Printable wLib demoPy demoOptions 1 demoFiles ["u".toList, "v".toList] := by
  intro w hw
  refine ⟨fun k e c he hc x hx => ?_, fun e f c he hf hc x hx => ?_⟩
  · obtain rfl : e = 0 := by omega
    rw [demo_points hw (fun s x => by rw [flat_chosen]; exact wanted_flat ⟨rfl, rfl⟩ x k)] at hc
    rw [fitted_two hc] at hx
    obtain rfl : x = 1 := by simpa using hx
    exact written_one
  · obtain rfl : e = 0 := by omega
    obtain rfl : f = 0 := by omega
    rw [demo_points hw (fun s x => by rw [flat_chosen]; exact wantedScatt_flat ⟨rfl, rfl⟩ x)] at hc
    rw [fitted_two hc] at hx
    obtain rfl : x = 1 := by simpa using hx
    exact written_one

theorem usable_demo : ∀ w ∈ ["u".toList, "v".toList], Usable w := by
  unfold Usable White
  decide

/-- Two files of one group and two universes fulfil the conditions of C104. -/
example : ∃ d out T, generate demoPy demoDisk demoOptions [] demoRows = .done (d, out) ∧
    ∀ lines, Pasted out lines → Tabled wLib lines demoOptions 1 demoFiles ["u".toList, "v".toList] T :=
  C104_partial demo_asks demoPy_fits demo_matching demo_printable usable_demo (by decide)

/-- Their lines can be stored, and the total cross section read for the first universe is near the line through 2 at 1 °C and 3 at 2 °C. -/
example : ∃ d out lines T, generate demoPy demoDisk demoOptions [] demoRows = .done (d, out) ∧ Pasted out lines ∧ TableFile wLib lines [⟨1, 1, "u".toList⟩] 1 T ∧
    Near [(1, 2), (2, 3)] (T.tot 0 "u".toList) := by
  obtain ⟨d, out, mid, h1, h2, h3⟩ := C104_stored_partial demo_asks demoPy_fits demo_matching demo_printable (by decide) (pre := []) (post := []) (by simp [active]) (by simp)
  obtain ⟨d', out', T, h4, h5⟩ := C104_partial demo_asks demoPy_fits demo_matching demo_printable usable_demo (by decide)
  have hrs : ∀ q ∈ [(⟨1, 1, "u".toList⟩ : Region)], q.mat ∈ ["u".toList, "v".toList] := by simp
  rw [h1] at h4
  cases h4
  have hT := ((h5 _ h3).file _ hrs).1
  refine ⟨d, out, _, T, h1, h3, hT, ?_⟩
  have := ((C104_data_partial demo_asks demoPy_fits demo_matching demo_printable usable_demo (by decide) h1 h3 hrs hT).1 ⟨1, 1, "u".toList⟩ (by simp) 0 (by omega)).2.2.2.1
  rwa [demo_points (by simp) (fun s x => by rw [flat_chosen]; exact wanted_flat ⟨rfl, rfl⟩ x .total)] at this

/-- … of C105: nothing is absorbed at any temperature, as in both files … -/
example : ∃ rs, crossSections demoPy demoOptions demoFiles = .done rs ∧ rs.map Result.matNumber = ["u".toList, "v".toList] ∧ ∀ r ∈ rs, ∃ t s row, (r.xs .total)[0]? = some t ∧
    r.scattMatrix0[0]? = some row ∧ row[0]? = some s ∧ ∀ x, along t.list x - along s.list x = 0 := by
  obtain ⟨rs, h1, h2, h3⟩ := C105 demoPy_fits demo_matching
  refine ⟨rs, h1, h2, fun r hr => ?_⟩
  obtain ⟨t, s, row, a, ht, hrow, hs, ha, hx⟩ := (h3 r hr).1 0 (by omega)
  refine ⟨t, s 0, row, ht, hrow, hs 0 (by omega), fun x => ?_⟩
  have hw : r.matNumber ∈ ["u".toList, "v".toList] := h2 ▸ List.mem_map_of_mem hr
  have hp : points demoFiles r.matNumber (fun u => ((chosen demoOptions u).xs .total).v 0 - ∑ f ∈ range 1, scattOf 1 (chosen demoOptions u) 0 f) = [(1, 0), (2, 0)] := by
    simp only [List.mem_cons, List.not_mem_nil, or_false] at hw
    have h1 : ∀ w ∈ ["u".toList, "v".toList], ∃ s, [uni "u" 2, uni "v" 2].find? (fun u => u.name = w) = some (uni s 2) := by
      simp only [List.mem_cons, List.not_mem_nil, or_false]
      rintro w (rfl | rfl)
      · exact ⟨"u", rfl⟩
      · exact ⟨"v", rfl⟩
    have h2 : ∀ w ∈ ["u".toList, "v".toList], ∃ s, [uni "v" 3, uni "u" 3].find? (fun u => u.name = w) = some (uni s 3) := by
      simp only [List.mem_cons, List.not_mem_nil, or_false]
      rintro w (rfl | rfl)
      · exact ⟨"u", rfl⟩
      · exact ⟨"v", rfl⟩
    obtain ⟨s1, h1⟩ := h1 _ (by simpa using hw)
    obtain ⟨s2, h2⟩ := h2 _ (by simpa using hw)
    simp only [points, demoFiles, List.map_cons, List.map_nil, h1, h2, Option.map_some, Option.getD_some, flat_chosen, Finset.sum_range_one]
    simp [scattOf, flat]
  rw [hp] at ha
  have := hx x
  rw [Finset.sum_range_one] at this
  rw [this]
  have h1 := ha.through (1, 0) (by simp)
  have h2 := ha.through (2, 0) (by simp)
  have hf := ha.few
  match a, ha.some, hf with
  | [a], _, _ =>
    rw [along_single] at h1 ⊢
    exact h1
  | [a, b], _, _ =>
    rw [along_pair] at h1 h2 ⊢
    norm_num at h1 h2
    have hb : b = 0 := by linarith
    have ha : a = 0 := by linarith
    rw [ha, hb]
    ring
  | _ :: _ :: _ :: _, _, hf => simp at hf

/-- … of C106: half way between the temperatures the total cross section is between those of the files … -/
example : ∃ rs, crossSections demoPy demoOptions demoFiles = .done rs ∧ ∀ r ∈ rs, ∃ c, (r.xs .total)[0]? = some c ∧ 2 ≤ along c.list (3 / 2) ∧ along c.list (3 / 2) ≤ 3 := by
  obtain ⟨rs, h1, h2, h3⟩ := C106_partial demoPy_fits demo_matching
  refine ⟨rs, h1, fun r hr => ?_⟩
  obtain ⟨u, hu, v, hv, -, -, h4, -⟩ := h3 r hr
  obtain ⟨c, hc, h5⟩ := h4 .total 0 (by omega)
  have hu' : wanted demoOptions (chosen demoOptions u) .total 0 = 2 := by
    simp only [List.mem_cons, List.not_mem_nil, or_false] at hu
    rcases hu with rfl | rfl <;> (rw [flat_chosen]; exact wanted_flat ⟨rfl, rfl⟩ _ _)
  have hv' : wanted demoOptions (chosen demoOptions v) .total 0 = 3 := by
    simp only [List.mem_cons, List.not_mem_nil, or_false] at hv
    rcases hv with rfl | rfl <;> (rw [flat_chosen]; exact wanted_flat ⟨rfl, rfl⟩ _ _)
  have := h5 (3 / 2) (by norm_num) (by norm_num)
  rw [hu', hv', min_eq_left (by norm_num), max_eq_right (by norm_num)] at this
  exact ⟨c, hc, this⟩

/-- … and of C107. -/
example : ∃ d fl, request demoPy [] demoRows = .done d ∧ prepareSerpentFiles demoDisk d = .done fl ∧ readFiles demoDisk fl = demoFiles := C107_partial demo_asks

/-- The window with a first and a third file. -/
example : ∃ d fl, request demoPy [] [⟨"1".toList, "C".toList, some "a".toList⟩, ⟨[], "K".toList, none⟩, ⟨"2".toList, "C".toList, some "b".toList⟩] = .done d ∧
    prepareSerpentFiles demoDisk d = .done fl ∧ readFiles demoDisk fl = [(0, [uni "u" 2, uni "v" 2])] :=
  C107_third_false (.celsius (by decide) demo_float.1 rfl (by norm_num)) (t2 := ((1 : Nat) : ℝ) + 1 - 273.15) (.emptyKelvin rfl rfl) (.celsius (by decide) demo_float.2 rfl (by norm_num))
    (by norm_num) ⟨"a".toList, by decide, rfl, if_pos rfl⟩ (.inl rfl) (u3 := [uni "v" 3, uni "u" 3]) ⟨"b".toList, by decide, rfl, (if_neg (by decide)).trans (if_pos rfl)⟩

/-- The window with both files, in degrees Celsius, and the other temperature left empty at zero degrees, twice. -/
example (o : Options) : generate demoPy demoDisk o [] [⟨"1".toList, "C".toList, some "a".toList⟩, ⟨[], "C".toList, none⟩, ⟨[], "C".toList, none⟩] = .fails .index :=
  C107_equal_false (.celsius (by decide) demo_float.1 rfl (by norm_num)) (.emptyCelsius rfl rfl) (.emptyCelsius rfl rfl) (by simp)

/-- The window with a file that is not there. -/
example (m : Missing) (h : generate demoPy demoDisk demoOptions [] [⟨"1".toList, "C".toList, some "a".toList⟩, ⟨"2".toList, "C".toList, some "c".toList⟩, ⟨[], "K".toList, none⟩] = .leaves m) :
    (m = .first ∧ NotThere demoDisk ⟨"1".toList, "C".toList, some "a".toList⟩) ∨ (m = .second ∧ NotThere demoDisk ⟨"2".toList, "C".toList, some "c".toList⟩) ∨
      (m = .third ∧ NotThere demoDisk ⟨[], "K".toList, none⟩) :=
  C107_message (.celsius (by decide) demo_float.1 rfl (by norm_num)) (.celsius (by decide) demo_float.2 rfl (by norm_num)) (t3 := ((2 : Nat) : ℝ) + 1 - 273.15) (.emptyKelvin rfl rfl)
    (by norm_num) h

/-- A second click with the files exchanged writes the same. -/
example : ∃ d out d', generate demoPy demoDisk demoOptions [] demoRows = .done (d, out) ∧
    generate demoPy demoDisk demoOptions d [⟨"1".toList, "K".toList, some "b".toList⟩, ⟨"2".toList, "K".toList, some "a".toList⟩, ⟨[], "C".toList, none⟩] = .done (d', out) := by
  obtain ⟨d, out, T, h, -⟩ := C104_partial demo_asks demoPy_fits demo_matching demo_printable usable_demo (by decide)
  obtain ⟨d', h'⟩ := C107_again_false (.celsius (by decide) demo_float.1 rfl (by norm_num)) (.celsius (by decide) demo_float.2 rfl (by norm_num)) (t3 := ((2 : Nat) : ℝ) + 1 - 273.15)
    (.emptyKelvin rfl rfl) (s1 := ⟨"1".toList, "K".toList, some "b".toList⟩) (s2 := ⟨"2".toList, "K".toList, some "a".toList⟩) (s3 := ⟨[], "C".toList, none⟩)
    (.kelvin (by decide) demo_float.1 rfl (by norm_num)) (.kelvin (by decide) demo_float.2 rfl (by norm_num)) (.emptyCelsius rfl rfl) (by norm_num) h
  exact ⟨d, out, d', h, h'⟩

/-! ### what goes wrong -/

/-- A file with three universes, the name of the first of which is the beginning of the name of the second. -/
def clashDisk : Disk := fun f => if f = "a".toList then some [uni "1" 1, uni "10" 9, uni "2" 1] else none

/-- The window with this file. -/
def clashRows : List Row := [⟨"1".toList, "C".toList, some "a".toList⟩, ⟨[], "K".toList, none⟩, ⟨[], "K".toList, none⟩]

/-- The output asked for. -/
def clashFiles : List (ℝ × List Universe) := [(0, [uni "1" 1, uni "10" 9, uni "2" 1])]

/-- The names of its universes. -/
def clashNames : List Text := ["1".toList, "10".toList, "2".toList]

theorem clash_asks : Asks demoPy clashDisk clashRows clashFiles :=
  .one (t2 := ((1 : Nat) : ℝ) + 1 - 273.15) (t3 := ((2 : Nat) : ℝ) + 1 - 273.15) (.celsius (by decide) demo_float.1 rfl (by norm_num)) (.emptyKelvin rfl rfl) (.emptyKelvin rfl rfl) (by norm_num)
    ⟨"a".toList, by decide, rfl, if_pos rfl⟩ (.inl rfl) (.inl rfl)

theorem clash_matching : Matching demoOptions 1 clashFiles clashNames where
  files := .inl rfl
  temps := by simp [clashFiles]
  nonempty := by simp [clashNames]
  nodup := by decide
  first := rfl
  same q hq := by
    simp only [clashFiles, List.mem_cons, List.not_mem_nil, or_false] at hq
    subst hq
    exact List.Perm.refl _
  groups q hq u hu := by
    simp only [clashFiles, List.mem_cons, List.not_mem_nil, or_false] at hq
    subst hq
    simp only [List.mem_cons, List.not_mem_nil, or_false] at hu
    rcases hu with rfl | rfl | rfl <;> exact ⟨rfl, by rw [flat_chosen]; exact flat_complete _⟩
  total _ h := by simp [demoOptions] at h

theorem clash_points {w : Text} (hw : w ∈ clashNames) {F : Universe → ℝ} (hF : ∀ s x, F (uni s x) = x) : points clashFiles w F = [(0, if w = "10".toList then 9 else 1)] := by
  simp only [clashNames, List.mem_cons, List.not_mem_nil, or_false] at hw
  rcases hw with rfl | rfl | rfl
  · have h1 : [uni "1" 1, uni "10" 9, uni "2" 1].find? (fun u => u.name = "1".toList) = some (uni "1" 1) := rfl
    simp only [points, clashFiles, List.map_cons, List.map_nil, h1, Option.map_some, Option.getD_some, hF]
    rw [if_neg (by decide)]
  · have h1 : [uni "1" 1, uni "10" 9, uni "2" 1].find? (fun u => u.name = "10".toList) = some (uni "10" 9) := rfl
    rw [if_pos rfl]
    simp only [points, clashFiles, List.map_cons, List.map_nil, h1, Option.map_some, Option.getD_some, hF]
  · have h1 : [uni "1" 1, uni "10" 9, uni "2" 1].find? (fun u => u.name = "2".toList) = some (uni "2" 1) := rfl
    simp only [points, clashFiles, List.map_cons, List.map_nil, h1, Option.map_some, Option.getD_some, hF]
    rw [if_neg (by decide)]

theorem clash_printable : Printable wLib demoPy demoOptions 1 clashFiles clashNames := by
  have key : ∀ w ∈ clashNames, ∀ c, Fitted [((0 : ℝ), if w = "10".toList then (9 : ℝ) else 1)] c → ∀ x ∈ c, Written wLib demoPy x := by
    intro w hw c hc x hx
    rw [fitted_one hc, List.mem_singleton] at hx
    subst hx
    split
    · exact written_nine
    · exact written_one
  intro w hw
  refine ⟨fun k e c he hc => ?_, fun e f c he hf hc => ?_⟩
  · obtain rfl : e = 0 := by omega
    rw [clash_points hw (fun s x => by rw [flat_chosen]; exact wanted_flat ⟨rfl, rfl⟩ x k)] at hc
    exact key w hw c hc
  · obtain rfl : e = 0 := by omega
    obtain rfl : f = 0 := by omega
    rw [clash_points hw (fun s x => by rw [flat_chosen]; exact wantedScatt_flat ⟨rfl, rfl⟩ x)] at hc
    exact key w hw c hc

/-- What is read of the file. -/
def clashRes : List Result := [⟨"1".toList, fun _ => [.scalar 1], [[.scalar 1]]⟩, ⟨"10".toList, fun _ => [.scalar 9], [[.scalar 9]]⟩, ⟨"2".toList, fun _ => [.scalar 1], [[.scalar 1]]⟩]

theorem clash_cross : crossSections demoPy demoOptions clashFiles = .done clashRes := by
  have hU : ∀ (w : String) (x : ℝ), readUniverse demoOptions 0 (uni w x) = .done ⟨fun _ => ⟨1, fun _ => x⟩, 1, fun i j => ([[x]].getD i []).getD j 0, 0, 1⟩ := fun w x => rfl
  have hF : ∀ (w : String) (x : ℝ), fitMaterial (fun ys => .scalar (ys.headD 0)) (fun ys => .scalar (ys.headD 0)) w.toList
      [⟨fun _ => ⟨1, fun _ => x⟩, 1, fun i j => ([[x]].getD i []).getD j 0, 0, 1⟩] 1 = .done ⟨w.toList, fun _ => [.scalar x], [[.scalar x]]⟩ := by
    intro w x
    have : (fun k : Key => match k with
      | .total => [Coefs.scalar x]
      | .ni => [Coefs.scalar x]
      | .chi => [Coefs.scalar x]
      | .fission => [Coefs.scalar x]
      | .absorption => [Coefs.scalar x]
      | .diffCoeff => [Coefs.scalar x]) = fun _ => [Coefs.scalar x] := by
      funext k
      cases k <;> rfl
    rw [← this]
    rfl
  unfold crossSections
  have hc : createMaterials [uni "1" 1, uni "10" 9, uni "2" 1] [] = .done [⟨"1".toList, []⟩, ⟨"10".toList, []⟩, ⟨"2".toList, []⟩] := rfl
  have hr : readAll demoOptions clashFiles [⟨"1".toList, []⟩, ⟨"10".toList, []⟩, ⟨"2".toList, []⟩] =
      .done [⟨"1".toList, [⟨fun _ => ⟨1, fun _ => 1⟩, 1, fun i j => ([[(1 : ℝ)]].getD i []).getD j 0, 0, 1⟩]⟩,
        ⟨"10".toList, [⟨fun _ => ⟨1, fun _ => 9⟩, 1, fun i j => ([[(9 : ℝ)]].getD i []).getD j 0, 0, 1⟩]⟩,
        ⟨"2".toList, [⟨fun _ => ⟨1, fun _ => 1⟩, 1, fun i j => ([[(1 : ℝ)]].getD i []).getD j 0, 0, 1⟩]⟩] := by
    simp only [readAll, clashFiles, readSerpentOutput, hU, done_bind, uni_name]
    simp [addGroupConstants]
  rw [item_ok (l := clashFiles) (i := 0) (a := (0, [uni "1" 1, uni "10" 9, uni "2" 1])) rfl, done_bind, hc, done_bind, hr, done_bind]
  unfold calculateALMOSTCrossSections
  simp only [item, List.getElem?_cons_zero, done_bind, List.length_singleton, each, hF]
  rfl

/-- The lines the generator writes … -/
def clashRaw : List Text :=
  ["".toList, "material 1".toList, "".toList, "ni(1)         1.0".toList, "chi(1)        1.0".toList, "total(1)      1.0".toList, "fission(1)    1.0".toList, "diffCoeff(1)  1.0".toList,
    "".toList, "scattMatrix(1, 1) 1.0".toList,
    "".toList, "material 10".toList, "".toList, "ni(1)         9.0".toList, "chi(1)        9.0".toList, "total(1)      9.0".toList, "fission(1)    9.0".toList, "diffCoeff(1)  9.0".toList,
    "".toList, "scattMatrix(1, 1) 9.0".toList,
    "".toList, "material 2".toList, "".toList, "ni(1)         1.0".toList, "chi(1)        1.0".toList, "total(1)      1.0".toList, "fission(1)    1.0".toList, "diffCoeff(1)  1.0".toList,
    "".toList, "scattMatrix(1, 1) 1.0".toList]

/-- … and how they are stored. -/
def clashKept : List Text :=
  ["".toList, "material 1".toList, "".toList, "ni(1) 1.0".toList, "chi(1) 1.0".toList, "total(1) 1.0".toList, "fission(1) 1.0".toList, "diffCoeff(1) 1.0".toList,
    "".toList, "scattMatrix(1, 1) 1.0".toList,
    "".toList, "material 10".toList, "".toList, "ni(1) 9.0".toList, "chi(1) 9.0".toList, "total(1) 9.0".toList, "fission(1) 9.0".toList, "diffCoeff(1) 9.0".toList,
    "".toList, "scattMatrix(1, 1) 9.0".toList,
    "".toList, "material 2".toList, "".toList, "ni(1) 1.0".toList, "chi(1) 1.0".toList, "total(1) 1.0".toList, "fission(1) 1.0".toList, "diffCoeff(1) 1.0".toList,
    "".toList, "scattMatrix(1, 1) 1.0".toList]

theorem clash_stored : Stored clashRaw clashKept := (C36_tidy clashRaw clashKept).1 (by rfl)

theorem clash_pages : pages demoPy .diffusion 1 pad clashRes = clashRaw := by
  have h : ∀ py : Py, py.fmt 1 = "1.0".toList → py.fmt 9 = "9.0".toList → pages py .diffusion 1 pad clashRes = clashRaw := by
    intro py h1 h9
    have e : pages py .diffusion 1 pad clashRes =
        ["".toList, "material 1".toList, "".toList, "ni(1)         ".toList ++ py.fmt 1, "chi(1)        ".toList ++ py.fmt 1, "total(1)      ".toList ++ py.fmt 1,
          "fission(1)    ".toList ++ py.fmt 1, "diffCoeff(1)  ".toList ++ py.fmt 1, "".toList, "scattMatrix(1, 1) ".toList ++ py.fmt 1,
          "".toList, "material 10".toList, "".toList, "ni(1)         ".toList ++ py.fmt 9, "chi(1)        ".toList ++ py.fmt 9, "total(1)      ".toList ++ py.fmt 9,
          "fission(1)    ".toList ++ py.fmt 9, "diffCoeff(1)  ".toList ++ py.fmt 9, "".toList, "scattMatrix(1, 1) ".toList ++ py.fmt 9,
          "".toList, "material 2".toList, "".toList, "ni(1)         ".toList ++ py.fmt 1, "chi(1)        ".toList ++ py.fmt 1, "total(1)      ".toList ++ py.fmt 1,
          "fission(1)    ".toList ++ py.fmt 1, "diffCoeff(1)  ".toList ++ py.fmt 1, "".toList, "scattMatrix(1, 1) ".toList ++ py.fmt 1] := rfl
    rw [e, h1, h9]
    rfl
  exact h demoPy demo_one demo_nine

set_option maxRecDepth 20000 in
theorem clash_block : findBlock wLib clashKept "material".toList "1".toList = .ok (11, 21) := by rfl

set_option maxRecDepth 20000 in
theorem clash_law : Law wLib clashKept "1".toList (groupKey "total" 0) 1 (Vec.ofList [9]) := by
  refine ⟨11, 21, ["total(1)".toList, "9.0".toList], findBlock_sound wLib_sane clash_block, card_eval wLib_sane (l := "total(1) 9.0".toList) (by rfl) (by rfl), by simp, ?_⟩
  rw [ofList_toList]
  refine .cons ?_ .nil
  show Outcome.ok _ = _
  rw [if_neg (by decide), if_pos rfl]

/-- **C104 fails** for names one of which is the beginning of another: in a file with the universes `1`, `10` and `2` the total cross section of the material `1` is read from the lines of
the material `10`, here nine instead of one. -/
theorem C104_false : ∃ (lib : Lib) (py : Py) (disk : Disk) (o : Options) (rows : List Row) (fs : List (ℝ × List Universe)) (names : List Text) (d : List (ℝ × Option Text)) (out lines : List Text),
    Asks py disk rows fs ∧ Interpolates py ∧ Matching o 1 fs names ∧ Printable lib py o 1 fs names ∧ (∀ w ∈ names, Usable w) ∧ generate py disk o [] rows = .done (d, out) ∧ Pasted out lines ∧
    (∃ w ∈ names, points fs w (fun u => wanted o (chosen o u) .total 0) = [(0, 1)] ∧ Law lib lines w (groupKey "total" 0) 1 (Vec.ofList [9])) ∧ ∀ T, ¬ Tabled lib lines o 1 fs names T := by
  obtain ⟨d, rs, h1, h2, -, h3⟩ := generate_ok clash_asks demoPy_fits clash_matching
  rw [clash_cross] at h1
  cases h1
  have hp : points clashFiles "1".toList (fun u => wanted demoOptions (chosen demoOptions u) .total 0) = [(0, 1)] := by
    rw [clash_points (by decide) (fun s x => by rw [flat_chosen]; exact wanted_flat ⟨rfl, rfl⟩ x _), if_neg (by decide)]
  refine ⟨wLib, demoPy, clashDisk, demoOptions, clashRows, clashFiles, clashNames, d, _, clashKept, clash_asks, demoPy_fits, clash_matching, clash_printable, ?_, h3,
    ⟨[], clashKept, [], by simp, ?_, by simp [active], by simp [clashKept]⟩, ⟨"1".toList, by decide, hp, clash_law⟩, fun T hT => ?_⟩
  · unfold Usable White
    decide
  · show Stored (pages demoPy .diffusion 1 pad clashRes) clashKept
    rw [clash_pages]
    exact clash_stored
  · have hl := ((hT.file [⟨1, 1, "1".toList⟩] (by simp [clashNames])).1.tot _ (List.mem_singleton.2 rfl) 0 (by omega))
    have hu := law_unique hl clash_law
    obtain ⟨c, hc, hr, -⟩ := hT.tot "1".toList (by decide) 0 (by omega)
    rw [hp] at hc
    obtain rfl := fitted_one hc
    rw [ofList_toList] at hu
    have hn : (T.tot 0 "1".toList).n = 1 := hr.1
    have h0 := hr.2 0 (by omega)
    have hv : (T.tot 0 "1".toList).v 0 = 9 := by
      unfold Vec.toList at hu
      rw [hn] at hu
      simpa using hu
    rw [hv] at h0
    norm_num at h0

/-- Three temperatures. -/
def dipFiles : List (ℝ × List Universe) := [(0, [uni "u" 1]), (300, [uni "u" (1 / 100)]), (600, [uni "u" (1 / 5)])]

theorem dip_matching : Matching demoOptions 1 dipFiles ["u".toList] where
  files := .inr (.inr rfl)
  temps := by norm_num [dipFiles]
  nonempty := by simp
  nodup := by decide
  first := rfl
  same q hq := by
    simp only [dipFiles, List.mem_cons, List.not_mem_nil, or_false] at hq
    rcases hq with rfl | rfl | rfl <;> exact List.Perm.refl _
  groups q hq u hu := by
    simp only [dipFiles, List.mem_cons, List.not_mem_nil, or_false] at hq
    rcases hq with rfl | rfl | rfl <;> simp only [List.mem_cons, List.not_mem_nil, or_false] at hu <;> subst hu <;>
      exact ⟨rfl, by rw [flat_chosen]; exact flat_complete _⟩
  total _ h := by simp [demoOptions] at h

/-- Three temperatures, not in order, and values that rise evenly enough. -/
def riseFiles : List (ℝ × List Universe) := [(300, [uni "u" 2]), (0, [uni "u" 1]), (600, [uni "u" 4])]

theorem rise_matching : Matching demoOptions 1 riseFiles ["u".toList] where
  files := .inr (.inr rfl)
  temps := by norm_num [riseFiles]
  nonempty := by simp
  nodup := by decide
  first := rfl
  same q hq := by
    simp only [riseFiles, List.mem_cons, List.not_mem_nil, or_false] at hq
    rcases hq with rfl | rfl | rfl <;> exact List.Perm.refl _
  groups q hq u hu := by
    simp only [riseFiles, List.mem_cons, List.not_mem_nil, or_false] at hq
    rcases hq with rfl | rfl | rfl <;> simp only [List.mem_cons, List.not_mem_nil, or_false] at hu <;> subst hu <;>
      exact ⟨rfl, by rw [flat_chosen]; exact flat_complete _⟩
  total _ h := by simp [demoOptions] at h

/-- With these files the total cross section at 450 degrees is between those at 300 and 600 degrees. -/
example {py : Py} (hpy : Interpolates py) : ∃ rs, crossSections py demoOptions riseFiles = .done rs ∧ rs ≠ [] ∧ ∀ m ∈ rs, ∃ c, (m.xs .total)[0]? = some c ∧ 2 ≤ along c.list 450 ∧ along c.list 450 ≤ 4 := by
  obtain ⟨rs, h1, h2, h3⟩ := C106_three (p := (0, [uni "u" 1])) (q := (300, [uni "u" 2])) (r := (600, [uni "u" 4])) hpy rise_matching (List.Perm.swap ..) (by norm_num) (by norm_num)
  refine ⟨rs, h1, by rintro rfl; simp at h2, fun m hm => ?_⟩
  obtain ⟨u, hu, v, hv, w, hw, -, -, -, h4, -⟩ := h3 m hm
  obtain ⟨c, hc, h5⟩ := h4 .total 0 (by omega)
  obtain rfl : u = uni "u" 1 := by simpa using hu
  obtain rfl : v = uni "u" 2 := by simpa using hv
  obtain rfl : w = uni "u" 4 := by simpa using hw
  simp only [flat_chosen, wanted_flat (o := demoOptions) ⟨rfl, rfl⟩] at h5
  have h6 := ((h5.1 (by norm_num [Tame])) 450).2 (by norm_num) (by norm_num)
  norm_num [Amid] at h6
  exact ⟨c, hc, h6⟩

/-- **C106 fails** for three files: the cross sections of all files are positive, and at 400 degrees, between the temperatures of the files, the total cross section of the polynomial is
negative, whatever the interpolation functions do to find it. -/
theorem C106_false : ∃ (o : Options) (fs : List (ℝ × List Universe)) (names : List Text), Matching o 1 fs names ∧ fs.map Prod.fst = [0, 300, 600] ∧
    (∀ q ∈ fs, ∀ u ∈ q.2, ∀ k, 0 < wanted o (chosen o u) k 0) ∧
    ∀ py, Interpolates py → ∃ rs, crossSections py o fs = .done rs ∧ rs ≠ [] ∧ ∀ r ∈ rs, ∃ c, (r.xs .total)[0]? = some c ∧ along c.list 400 < 0 := by
  refine ⟨demoOptions, dipFiles, ["u".toList], dip_matching, rfl, fun q hq u hu k => ?_, fun py hpy => ?_⟩
  · simp only [dipFiles, List.mem_cons, List.not_mem_nil, or_false] at hq
    rcases hq with rfl | rfl | rfl <;> simp only [List.mem_cons, List.not_mem_nil, or_false] at hu <;> subst hu <;> rw [flat_chosen, wanted_flat ⟨rfl, rfl⟩] <;> norm_num
  · obtain ⟨rs, h1, h2, h3⟩ := cross_ok hpy dip_matching
    refine ⟨rs, h1, ?_, fun r hr => ?_⟩
    · rintro rfl
      simp at h2
    · obtain ⟨c, hc, hf⟩ := (h3 r hr).tables .total 0 (by omega)
      refine ⟨c, hc, ?_⟩
      have hw : r.matNumber = "u".toList := by
        have : r.matNumber ∈ ["u".toList] := h2 ▸ List.mem_map_of_mem hr
        simpa using this
      have hp : points dipFiles r.matNumber (fun u => wanted demoOptions (chosen demoOptions u) .total 0) = [(0, 1), (300, 1 / 100), (600, 1 / 5)] := by
        have hfu : ∀ x, [uni "u" x].find? (fun u => u.name = "u".toList) = some (uni "u" x) := fun x => rfl
        rw [hw]
        simp only [points, dipFiles, List.map_cons, List.map_nil, hfu, Option.map_some, Option.getD_some, flat_chosen, wanted_flat (o := demoOptions) ⟨rfl, rfl⟩]
      rw [hp] at hf
      generalize c.list = l at hf
      have a1 := hf.through (0, 1) (by simp)
      have a2 := hf.through (300, 1 / 100) (by simp)
      have a3 := hf.through (600, 1 / 5) (by simp)
      have hl := hf.few
      match l, hf.some, hl with
      | [a], _, _ =>
        rw [along_single] at a1 a2
        norm_num at a1 a2
        linarith
      | [a, b], _, _ =>
        rw [along_pair] at a1 a2 a3
        norm_num at a1 a2 a3
        linarith
      | [a, b, c], _, _ =>
        have h3 : ∀ x, along [a, b, c] x = a + b * x + c * x ^ 2 := fun x => by simp [along, Finset.sum_range_succ]
        rw [h3] at a1 a2 a3 ⊢
        norm_num at a1 a2 a3 ⊢
        linarith
      | _ :: _ :: _ :: _ :: _, _, hl =>
        simp at hl
        omega

/-- **C107 fails.** If the second file does not describe the first universe of the first one, the second file is not used for the other universes either, and nothing is said about it: the total cross
section of `v`, one at one degree and nine at two degrees, is taken to be one at all temperatures. -/
theorem C107_lost_false (py : Py) : ∃ rs, crossSections py demoOptions [(1, [uni "u" 1, uni "v" 1]), (2, [uni "v" 9])] = .done rs ∧ ∃ r ∈ rs, r.matNumber = "v".toList ∧
    r.xs .total = [.scalar 1] := by
  have hU : ∀ (t : ℝ) (w : String) (x : ℝ), readUniverse demoOptions t (uni w x) = .done ⟨fun _ => ⟨1, fun _ => x⟩, 1, fun i j => ([[x]].getD i []).getD j 0, t, 1⟩ := fun t w x => rfl
  unfold crossSections
  have hc : createMaterials [uni "u" 1, uni "v" 1] [] = .done [⟨"u".toList, []⟩, ⟨"v".toList, []⟩] := rfl
  have hr : readAll demoOptions [(1, [uni "u" 1, uni "v" 1]), (2, [uni "v" 9])] [⟨"u".toList, []⟩, ⟨"v".toList, []⟩] =
      .done [⟨"u".toList, [⟨fun _ => ⟨1, fun _ => 1⟩, 1, fun i j => ([[(1 : ℝ)]].getD i []).getD j 0, 1, 1⟩]⟩,
        ⟨"v".toList, [⟨fun _ => ⟨1, fun _ => 1⟩, 1, fun i j => ([[(1 : ℝ)]].getD i []).getD j 0, 1, 1⟩, ⟨fun _ => ⟨1, fun _ => 9⟩, 1, fun i j => ([[(9 : ℝ)]].getD i []).getD j 0, 2, 1⟩]⟩] := by
    simp only [readAll, readSerpentOutput, hU, done_bind, uni_name]
    simp [addGroupConstants]
  rw [item_ok (i := 0) (a := ((1 : ℝ), [uni "u" 1, uni "v" 1])) rfl, done_bind, hc, done_bind, hr, done_bind]
  unfold calculateALMOSTCrossSections
  simp only [item, List.getElem?_cons_zero, done_bind, List.length_singleton, each]
  exact ⟨_, rfl, _, List.mem_cons_of_mem _ (List.mem_singleton.2 rfl), rfl, rfl⟩

end

end Verif.Gen
