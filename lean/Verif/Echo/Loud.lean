import Verif.Echo.Lemmas
import Verif.Echo.Spec
import Verif.Input.CompleteProps

/-! # Whenever the reader ends the program it says why -/

namespace Verif.Echo

open Verif Outcome Input Tell

noncomputable section

variable {α β : Type} {v : Voice} {lib : Lib} {lines : List Text} {P : Text → Prop}

/-! ### what cannot end the program -/

theorem ne_bind {x : Outcome α} {f : α → Outcome β} (hx : x ≠ exit) (hf : ∀ a, f a ≠ exit) : (x >>= f) ≠ exit := by
  cases x with
  | ok a => exact hf a
  | exit => exact absurd rfl hx
  | _ => exact fun h => by cases h

theorem ne_loop {body : Nat → α → Outcome α} (h : ∀ i s, body i s ≠ exit) : ∀ n s, Verif.loop body n s ≠ exit
  | 0, _ => fun e => by cases e
  | n + 1, s => by
    rw [loop_succ]
    exact ne_bind (ne_loop h n s) (h n)

theorem ne_get (x : Vec α) (i : Nat) : x.get i ≠ exit := by
  unfold Vec.get
  split <;> intro e <;> cases e

theorem ne_set (x : Vec α) (i : Nat) (a : α) : x.set i a ≠ exit := by
  unfold Vec.set
  split <;> intro e <;> cases e

theorem ne_fdiv (a b : ℝ) : fdiv a b ≠ exit := by
  unfold fdiv
  split <;> intro e <;> cases e

theorem ne_predIdx (n : Nat) : predIdx n ≠ exit := by
  unfold predIdx
  split <;> intro e <;> cases e

theorem ne_ok (a : α) : ok a ≠ exit := fun e => by cases e

theorem ne_ub : (ub : Outcome α) ≠ exit := fun e => by cases e

theorem ne_throws (e : Exn) : (throws e : Outcome α) ≠ exit := fun e => by cases e

theorem ne_ite {c : Prop} [Decidable c] {x y : Outcome α} (hx : x ≠ exit) (hy : y ≠ exit) : (if c then x else y) ≠ exit := by
  split
  · exact hx
  · exact hy

theorem ne_stoi (w : Text) : stoi w ≠ exit := by
  unfold stoi
  dsimp only
  exact ne_ite (ne_throws _) (ne_ite (ne_ok _) (ne_throws _))

theorem ne_isFloat (w : Text) : isFloat w ≠ exit := by
  unfold isFloat
  split
  · exact ne_ok _
  · exact ne_ub
  · exact ne_ok _

theorem ne_comment (hr : Returns lib) : ∀ l, comment lib l ≠ exit
  | [] => ne_bind hr.2 fun _ => ne_ok _
  | _ :: _ => ne_ok _

theorem ne_block (hr : Returns lib) (one two : Text) : ∀ (ls : List Text) (n : Nat) (b : Nat × Nat), blockFrom lib one two n b ls ≠ exit
  | [], _, _ => ne_ok _
  | l :: ls, n, b => by
    unfold blockFrom
    exact ne_bind (ne_comment hr l) fun c => ne_ite (ne_block hr one two ls _ _) (ne_block hr one two ls _ _)

theorem ne_stods (hr : Returns lib) : ∀ ws, stods lib ws ≠ exit
  | [] => ne_ok _
  | w :: ws => by
    unfold stods
    exact ne_bind (hr.1 w) fun _ => ne_bind (ne_stods hr ws) fun _ => ne_ok _

theorem ne_allFloat : ∀ ws, allFloat ws ≠ exit
  | [] => ne_ok _
  | w :: ws => by
    unfold allFloat
    exact ne_bind (ne_isFloat w) fun _ => ne_ite (ne_allFloat ws) (ne_ok _)

theorem ne_formatWord (hr : Returns lib) (w : Text) : formatWord v lib w ≠ exit := by
  unfold formatWord
  exact ne_ite (ne_ok _) (ne_bind (hr.1 w) fun _ => ne_ok _)

theorem ne_formatLine (hr : Returns lib) : ∀ ws, formatLine v lib ws ≠ exit
  | [] => ne_ok _
  | w :: ws => by
    unfold formatLine
    exact ne_bind (ne_formatWord hr w) fun _ => ne_bind (ne_formatLine hr ws) fun _ => ne_ok _

theorem ne_ramp (c : Vec Nat) (e x : Vec ℝ) : ramp c e x ≠ exit := by
  unfold ramp
  refine ne_bind (ne_loop (fun k s => ?_) _ _) fun _ => ne_ok _
  refine ne_bind (ne_get _ _) fun n => ne_bind (ne_loop (fun j s => ?_) _ _) fun s => ne_bind (ne_get _ _) fun _ => ne_ok _
  exact ne_bind (ne_get _ _) fun _ => ne_bind (ne_fdiv _ _) fun _ => ne_bind (ne_set _ _ _) fun _ => ne_ok _

theorem ne_repeat (c : Vec Nat) (e x : Vec ℝ) : repeatLoop c e x ≠ exit := by
  unfold repeatLoop
  refine ne_bind (ne_loop (fun k s => ?_) _ _) fun _ => ne_ok _
  refine ne_bind (ne_get _ _) fun n => ne_loop (fun j s => ?_) _ _
  exact ne_bind (ne_get _ _) fun _ => ne_bind (ne_set _ _ _) fun _ => ne_ok _

theorem ne_valueCount (hr : Returns lib) : ∀ ws, valueCount lib ws ≠ exit
  | [] => ne_ok _
  | [w] => by
    unfold valueCount
    exact ne_bind (hr.1 w) fun _ => ne_ok _
  | a :: b :: l => by
    unfold valueCount
    exact ne_bind (hr.1 a) fun _ => ne_bind (ne_stoi b) fun _ => ne_bind (ne_valueCount hr l) fun _ => ne_ok _

theorem ne_countEnd (hr : Returns lib) : ∀ ws, countEnd lib ws ≠ exit
  | [] => ne_ok _
  | [w] => by
    unfold countEnd
    exact ne_bind (ne_stoi w) fun _ => ne_ok _
  | a :: b :: l => by
    unfold countEnd
    exact ne_bind (ne_stoi a) fun _ => ne_bind (hr.1 b) fun _ => ne_bind (ne_countEnd hr l) fun _ => ne_ok _

theorem ne_resize (n : Int) : resize n ≠ exit := by
  unfold resize
  exact ne_ite (ne_throws _) (ne_ok _)

theorem ne_values (hr : Returns lib) (ws : List Text) : values lib ws ≠ exit := by
  unfold values
  refine ne_bind (ne_allFloat ws) fun b => ne_ite (ne_bind (ne_stods hr ws) fun _ => ne_ok _) ?_
  refine ne_bind ?_ fun w => ne_bind (ne_isFloat w) fun f => ?_
  · cases ws
    · exact ne_ub
    · exact ne_ok _
  · unfold expand
    refine ne_ite (ne_bind (ne_valueCount hr ws) fun r => ne_bind (ne_resize _) fun x => ne_repeat _ _ _) ?_
    exact ne_bind (ne_countEnd hr ws) fun r => ne_ite ne_ub (ne_bind (ne_resize _) fun x => ne_ramp _ _ _)

theorem ne_regions (hr : Returns lib) : ∀ ws, regions lib ws ≠ exit
  | [] => ne_ok _
  | [a] => by
    unfold regions
    exact ne_bind (ne_stoi a) fun _ => ne_ok _
  | [a, b] => by
    unfold regions
    exact ne_bind (ne_stoi a) fun _ => ne_bind (hr.1 b) fun _ => ne_ok _
  | a :: b :: c :: l => by
    unfold regions
    exact ne_bind (ne_stoi a) fun _ => ne_bind (hr.1 b) fun _ => ne_bind (ne_regions hr l) fun _ => ne_ok _

theorem ne_meshBounds (c : List Nat) (d : List ℝ) : meshBounds c d ≠ exit := ne_ite ne_ub (ne_ramp _ _ _)

theorem ne_volumeLoop (f : ℝ → ℝ → ℝ) (b : Vec ℝ) : Mesh.volumeLoop f b ≠ exit := by
  unfold Mesh.volumeLoop
  refine ne_bind (ne_predIdx _) fun n => ne_loop (fun i x => ?_) _ _
  exact ne_bind (ne_get _ _) fun _ => ne_bind (ne_get _ _) fun _ => ne_set _ _ _

theorem ne_volumes (g : Mesh.Grid) (d : String) : Mesh.volumes g d ≠ exit := by
  unfold Mesh.volumes
  split
  · exact ne_ok _
  all_goals exact ne_bind (ne_volumeLoop _ _) fun _ => ne_ok _

theorem ne_mapLoop (names : Vec Text) : ∀ (ns : List Nat) (i : Nat) (l : List Text), mapLoop names i ns l ≠ exit
  | [], _, _ => ne_ok _
  | n :: ns, i, l => by
    unfold mapLoop
    exact ne_bind (ne_loop (fun _ l => ne_bind (ne_get _ _) fun _ => ne_ok _) _ _) fun l => ne_mapLoop names ns _ l

theorem ne_create (names : Vec String) (g : Mesh.Grid) : Mesh.createMaterials names g ≠ exit := by
  unfold Mesh.createMaterials
  exact ne_bind (ne_loop (fun i x => ne_bind (ne_get _ _) fun _ => ne_set _ _ _) _ _) fun _ => ne_ok _

theorem ne_middle (g : Mesh.Grid) : Mesh.middlePoints g ≠ exit := by
  unfold Mesh.middlePoints
  refine ne_bind (ne_predIdx _) fun n => ne_loop (fun i x => ?_) _ _
  exact ne_bind (ne_get _ _) fun _ => ne_bind (ne_get _ _) fun _ => ne_set _ _ _

theorem ne_change (f : Mesh.Material → Mesh.Material) (i : Nat) (g : Mesh.Grid) : Mesh.change f i g ≠ exit := by
  unfold Mesh.change
  exact ne_bind (ne_get _ _) fun _ => ne_bind (ne_set _ _ _) fun _ => ne_ok _

theorem ne_groups (n : Nat) (g : Mesh.Grid) : Mesh.setGroups n g ≠ exit := ne_loop (fun i g => ne_change _ i g) _ _

theorem ne_temps (t : Vec ℝ) (g : Mesh.Grid) : Mesh.setTemperatures t g ≠ exit := ne_loop (fun i g => ne_bind (ne_get _ _) fun _ => ne_change _ i g) _ _

theorem ne_sources (t : Vec ℝ) (g : Mesh.Grid) : Mesh.setHeatSources t g ≠ exit := ne_loop (fun i g => ne_bind (ne_get _ _) fun _ => ne_change _ i g) _ _

theorem ne_addLaw (hr : Returns lib) (put : Mesh.Material → Vec ℝ → Mesh.Material) (ws : List Text) (m : Nat) (g : Mesh.Grid) : addLaw lib put ws m g ≠ exit := by
  unfold addLaw
  exact ne_ite (ne_bind (ne_stods hr ws) fun _ => ne_change _ _ _) (ne_throws _)

theorem ne_skip (n : Nat) (ws : List Text) : skip n ws ≠ exit := ne_ite (ne_ok _) ne_ub

theorem ne_storeLines : ∀ ls, storeLines ls ≠ exit
  | [] => ne_ok _
  | l :: ls => by
    unfold storeLines
    exact ne_bind (ne_ite (ne_ok _) ne_ub) fun _ => ne_bind (ne_storeLines ls) fun _ => ne_ok _

/-! ### saying why -/

/-- If the part ends the program, its last line is one of those in `P`. -/
def Loud (P : Text → Prop) (m : Tell α) : Prop := m.res = exit → ∃ pre t, m.said = pre ++ [t] ∧ P t

theorem loud_pure (a : α) : Loud P (pure a : Tell α) := fun h => by cases h

theorem loud_say (l : List Text) : Loud P (say l) := fun h => by cases h

theorem loud_lift {x : Outcome α} (h : x ≠ exit) : Loud P (lift x) := fun e => absurd e h

theorem loud_quit {t : Text} (h : P t) : Loud P (quit t : Tell α) := fun _ => ⟨[], t, rfl, h⟩

theorem loud_orSay {x : Outcome α} {t : Text} (h : x = exit → P t) : Loud P (orSay x t) := by
  intro e
  rw [orSay_res] at e
  subst e
  exact ⟨[], t, rfl, h rfl⟩

theorem bind_ok {m : Tell α} {f : α → Tell β} {a : α} (h : m.res = ok a) : (m >>= f) = ⟨m.said ++ (f a).said, (f a).res⟩ := by
  show Tell.bind m f = _
  unfold Tell.bind
  rw [h]

theorem loud_bind {m : Tell α} {f : α → Tell β} (hm : Loud P m) (hf : ∀ a, m.res = ok a → Loud P (f a)) : Loud P (m >>= f) := by
  intro h
  cases hres : m.res with
  | ok a =>
    rw [bind_ok hres] at h ⊢
    obtain ⟨pre, t, ht, hP⟩ := hf a hres h
    exact ⟨m.said ++ pre, t, by rw [ht, List.append_assoc], hP⟩
  | exit =>
    obtain ⟨pre, t, ht, hP⟩ := hm hres
    refine ⟨pre, t, ?_, hP⟩
    rw [← ht]
    show (Tell.bind m f).said = _
    unfold Tell.bind
    rw [hres]
  | throws e => rw [bind_res, hres] at h; cases h
  | ub => rw [bind_res, hres] at h; cases h
  | nonfinite => rw [bind_res, hres] at h; cases h

theorem loud_loop {body : Nat → α → Tell α} (h : ∀ i a, Loud P (body i a)) : ∀ n a, Loud P (Tell.loop body n a)
  | 0, a => loud_pure a
  | n + 1, a => by
    rw [Tell.loop]
    exact loud_bind (loud_loop h n a) fun b _ => h n b

theorem loud_ite {c : Prop} [Decidable c] {x y : Tell α} (hx : c → Loud P x) (hy : ¬ c → Loud P y) : Loud P (if c then x else y) := by
  split
  · exact hx (by assumption)
  · exact hy (by assumption)

/-! ### keywords -/

theorem findFrom_exit (hs : Sane lib) (hr : Returns lib) {key : Text} {low top : Nat} {opt : Bool} : ∀ {ls : List Text} {n : Nat}, findFrom lib key low top opt n ls = exit →
    ∀ i m, low ≤ n + i → n + i ≤ top → (active ls)[i]? = some m → ¬ small key <:+: small m
  | [], _, _ => fun i m _ _ e => by simp [active] at e
  | a :: ls, n, h => by
    unfold findFrom at h
    rcases comment_cases hs a with ⟨h1, h2⟩ | ⟨h1, h2⟩ | ⟨h1, h2⟩
    · rw [h1, ok_bind] at h
      simp only [if_true] at h
      obtain ⟨r, rfl⟩ : ∃ r, a = '%' :: r := by
        cases a with
        | nil => simp at h2
        | cons x r => simp at h2; exact ⟨r, by rw [h2]⟩
      rw [active_cons_comment]
      exact findFrom_exit hs hr h
    · rw [h1, ok_bind] at h
      rw [active_cons h2]
      simp only [Bool.false_eq_true, if_false] at h
      split at h
      · cases h
      · rename_i hh
        intro i m hlow htop e
        cases i with
        | zero =>
          cases e
          intro z
          apply hh
          simp only [Bool.and_eq_true, decide_eq_true_eq]
          exact ⟨has_iff.2 z, hlow, htop⟩
        | succ i => exact findFrom_exit hs hr h i m (by omega) (by omega) e
    · exfalso
      cases hc : comment lib a with
      | ok b => exact comment_not_ok h2 b (h1 ▸ hc)
      | exit => exact ne_comment hr a hc
      | _ => rw [hc] at h; cases h

theorem sought_eq (hs : Sane lib) : ∀ {ls : List Text} (key : Text), (active ls ≠ [] → sought lib key ls = small key) ∧ (active ls = [] → sought lib key ls = key ∨ sought lib key ls = small key)
  | [], key => ⟨fun h => absurd rfl h, fun _ => Or.inl rfl⟩
  | a :: ls, key => by
    unfold sought
    rcases comment_cases hs a with ⟨h1, h2⟩ | ⟨h1, h2⟩ | ⟨h1, h2⟩
    · rw [h1]
      obtain ⟨r, rfl⟩ : ∃ r, a = '%' :: r := by
        cases a with
        | nil => simp at h2
        | cons x r => simp at h2; exact ⟨r, by rw [h2]⟩
      rw [active_cons_comment]
      exact sought_eq hs key
    · rw [h1]
      exact ⟨fun _ => rfl, fun _ => Or.inr rfl⟩
    · refine ⟨fun _ => ?_, fun _ => ?_⟩
      · cases hc : comment lib a with
        | ok b => exact absurd (h1 ▸ hc) (comment_not_ok h2 b)
        | _ => rfl
      · cases hc : comment lib a with
        | ok b => exact absurd (h1 ▸ hc) (comment_not_ok h2 b)
        | _ => exact Or.inr rfl

theorem active_calls {ks : List Calc.Kind} (h : Calls lines ks) : active lines ≠ [] := by
  obtain ⟨c, ws, ⟨i, m, hf, -⟩, -⟩ := h
  intro e
  have := hf.1.1
  rw [e] at this
  simp at this

theorem silent_exit (hs : Sane lib) (hr : Returns lib) {key : Text} {a b : Nat} {opt : Bool} (h : Input.findKeyword lib lines key a b opt = exit) : Silent lines key a b :=
  fun i m h1 h2 hS => findFrom_exit hs hr h i m (by omega) (by omega) hS.1 hS.2

theorem loud_find (hs : Sane lib) (hr : Returns lib) {ks : List Calc.Kind} (hk : Calls lines ks) {key key' : Text} (e : small key = small key') {a b : Nat} {opt : Bool}
    (hn : Needs lines ks key' a b) : Loud (Complaint v lib lines) (findKeyword lib lines key a b opt) :=
  loud_orSay fun h => by
    rw [(sought_eq hs key).1 (active_calls hk), e]
    exact .missing hk hn fun i m h1 h2 hS => silent_exit hs hr h i m h1 h2 ((speaks_small e).2 hS)

/-- What is found in a search is said by a line of the file. -/
theorem card_found (hs : Sane lib) {key key' l : Text} (e : small key = small key') {a b : Nat} {opt : Bool} (h : Input.findKeyword lib lines key a b opt = ok l) {w : Text} {ws : List Text}
    (hw : splitLine l = w :: ws) : CardIn lines key' a b (w :: ws) := by
  rcases findKeyword_sound hs h with ⟨i, m, hf, rfl⟩ | ⟨-, rfl, -⟩
  · exact ⟨i, m, ⟨(speaks_small e).1 hf.1, hf.2.1, hf.2.2.1, fun j m' h1 h2 h3 => hf.2.2.2 j m' h1 h2 ((speaks_small e).2 h3)⟩, says_iff.2 hw⟩
  · cases hw

theorem loud_readOne (hs : Sane lib) (hr : Returns lib) {ks : List Calc.Kind} (hk : Calls lines ks) {key key' : Text} (e : small key = small key') (hn : Needs lines ks key' 0 4294967295) :
    Loud (Complaint v lib lines) (readOne lib lines key) := by
  unfold readOne
  refine loud_bind (loud_find hs hr hk e hn) fun l hl => ?_
  rw [findKeyword_res] at hl
  have hw := fun w ws => card_found (w := w) (ws := ws) hs e hl
  split
  · exact loud_lift ne_ub
  · exact loud_quit (.bare hk hn (hw _ _ (by assumption)))
  · exact loud_pure _
  · rename_i w ws h1 h2 e
    refine loud_quit (.many hk hn (hw _ _ e) ?_)
    rcases ws with _ | ⟨x, _ | ⟨y, ws⟩⟩
    · exact absurd rfl h1
    · exact absurd rfl (h2 x)
    · simp

theorem loud_readMany (hs : Sane lib) (hr : Returns lib) {ks : List Calc.Kind} (hk : Calls lines ks) {key : Text} {opt : Bool} (hn : Needs lines ks key 0 4294967295) :
    Loud (Complaint v lib lines) (readMany lib lines key opt) := by
  unfold readMany
  refine loud_bind (loud_find hs hr hk rfl hn) fun l hl => ?_
  rw [findKeyword_res] at hl
  have hw := fun w ws => card_found (w := w) (ws := ws) hs rfl hl
  split
  · exact loud_pure _
  · exact loud_quit (.bare hk hn (hw _ _ (by assumption)))
  · exact loud_pure _

theorem loud_readValues (hs : Sane lib) (hr : Returns lib) {ks : List Calc.Kind} (hk : Calls lines ks) {key : Text} {title : String} (hn : Needs lines ks key 0 4294967295) :
    Loud (Complaint v lib lines) (readValues v lib lines key title) := by
  unfold readValues
  exact loud_bind (loud_readMany hs hr hk hn) fun ws _ => loud_bind (loud_lift (ne_values hr ws)) fun x _ => loud_bind (loud_say _) fun _ _ => loud_pure _

/-! ### solvers and plots -/

theorem findFrom_opt (hr : Returns lib) {key : Text} {low top : Nat} : ∀ {ls : List Text} {n : Nat}, findFrom lib key low top true n ls ≠ exit
  | [], _ => ne_ok _
  | a :: ls, n => by
    unfold findFrom
    exact ne_bind (ne_comment hr a) fun c => ne_ite (findFrom_opt hr) (ne_ite (ne_ok _) (findFrom_opt hr))

theorem loud_plots (hs : Sane lib) (hr : Returns lib) {r : Reader} (hl : r.lines = lines) : Loud (Complaint v lib lines) (setPlots lib r) := by
  unfold setPlots
  refine loud_bind ?_ fun ws _ => loud_pure _
  unfold readMany
  rw [hl]
  refine loud_bind (loud_orSay fun h => absurd h (findFrom_opt hr)) fun l hl => ?_
  rw [findKeyword_res] at hl
  split
  · exact loud_pure _
  · exact loud_quit (.noWords (key := "plots") (by simp) (card_found hs rfl hl (by assumption)))
  · exact loud_pure _

theorem loud_solverList {ws : List Text} (h : ∀ w ∈ ws, (∀ k, (w, k) ∉ solverNames) → P (w ++ " solver kind not recognized!".toList)) : Loud P (solverList ws) := by
  induction ws with
  | nil => exact loud_pure _
  | cons w ws ih =>
    unfold solverList
    refine loud_bind (loud_orSay fun e => h w (by simp) fun k hk => ?_) fun k _ => loud_bind (ih fun w hw => h w (by simp [hw])) fun x _ => loud_pure _
    rw [kindOf_name hk] at e
    cases e

theorem loud_setSolvers (hs : Sane lib) (hr : Returns lib) {r : Reader} (hl : r.lines = lines) : Loud (Complaint v lib lines) (setSolvers lib r) := by
  unfold setSolvers
  rw [hl]
  refine loud_bind ?_ fun ws hws => loud_bind ?_ fun x _ => loud_bind (loud_say _) fun _ _ => loud_pure _
  · unfold readMany
    refine loud_bind (loud_orSay fun h => ?_) fun l hl => ?_
    · have : sought lib "solvers".toList lines = "solvers".toList := by
        by_cases ha : active lines = []
        · rcases (sought_eq hs "solvers".toList).2 ha with e | e
          · exact e
          · exact e
        · exact (sought_eq hs "solvers".toList).1 ha
      rw [this]
      exact .noSolvers (silent_exit hs hr h)
    · rw [findKeyword_res] at hl
      split
      · exact loud_pure _
      · exact loud_quit (.noWords (key := "solvers") (by simp) (card_found hs rfl hl (by assumption)))
      · exact loud_pure _
  · rw [readMany_res] at hws
    rcases readMany_sound hs hws with ⟨k, -, hc⟩ | ⟨rfl, hc⟩
    · exact loud_solverList fun w hw hn => .unknown hc hw hn
    · refine loud_solverList fun w hw hn => ?_
      rw [List.mem_singleton.1 hw]
      exact .unsaid hc

/-! ### geometry and mesh -/

theorem geomOf_sound {w : Text} {g : Diffusion.Geom} (h : geomOf w = ok g) : (w, g) ∈ geometries := by
  unfold geomOf at h
  repeat' split at h
  all_goals first
    | (cases h; subst_vars; simp [geometries])
    | cases h

theorem geomOf_exit {w : Text} (h : geomOf w = exit) : ∀ g, (w, g) ∉ geometries := by
  intro g hg
  simp only [geometries, List.mem_cons, Prod.mk.injEq, List.not_mem_nil, or_false] at hg
  rcases hg with ⟨rfl, rfl⟩ | ⟨rfl, rfl⟩ | ⟨rfl, rfl⟩ <;> exact absurd h (by decide)

theorem loud_setGeometry (hs : Sane lib) (hr : Returns lib) {ks : List Calc.Kind} (hk : Calls lines ks) {k : Calc.Kind} (hm : k ∈ ks) (hn : k ≠ .kinetics) {r : Reader} (hl : r.lines = lines) :
    Loud (Complaint v lib lines) (setGeometry lib r) := by
  unfold setGeometry
  rw [hl]
  refine loud_bind (loud_readOne hs hr hk rfl (.shape (by simp) hm hn)) fun w hw => loud_bind (loud_orSay fun e => ?_) fun g _ => loud_bind (loud_say _) fun _ _ => loud_pure _
  rw [readOne_res] at hw
  obtain ⟨c, hc⟩ := readOne_sound hs hw
  exact .shape hc (geomOf_exit e)

theorem loud_setMesh (hs : Sane lib) (hr : Returns lib) {ks : List Calc.Kind} (hk : Calls lines ks) {k : Calc.Kind} (hm : k ∈ ks) (hn : k ≠ .kinetics) {r : Reader} (hl : r.lines = lines) :
    Loud (Complaint v lib lines) (setMesh v lib r) := by
  unfold setMesh
  rw [hl]
  exact loud_bind (loud_readMany hs hr hk (.shape (by simp) hm hn)) fun ws _ => loud_bind (loud_lift (ne_regions hr _)) fun c _ => loud_bind (loud_lift (ne_meshBounds _ _)) fun b _ =>
    loud_bind (loud_say _) fun _ _ => loud_bind (loud_lift (ne_volumes _ _)) fun x _ => loud_bind (loud_say _) fun _ _ => loud_bind (loud_lift (ne_mapLoop _ _ _ _)) fun m _ =>
    loud_bind (loud_lift (ne_create _ _)) fun g _ => loud_bind (loud_say _) fun _ _ => loud_bind (loud_lift (ne_formatLine hr _)) fun t _ => loud_bind (loud_say _) fun _ _ =>
    loud_bind (loud_lift (ne_middle _)) fun y _ => loud_bind (loud_say _) fun _ _ => loud_pure _

/-! ### settings -/

theorem name_small (k : Calc.Kind) : small ("solver ".toList ++ solverName k) = small ("solver ".toList ++ blockName k) := by
  cases k <;> decide

theorem name_kind (k : Calc.Kind) : solverName k = kindName k := by
  cases k <;> rfl

/-- The kinds whose settings can be unfit. -/
def Bodily (k : Calc.Kind) : Prop := k ∈ neutronics ∨ k = .heat

theorem ne_boundary (hr : Returns lib) (vs : List Text) (s : Calc.Settings) (p : Calc.Plant) : setBoundary lib vs s p ≠ exit := ne_bind (ne_stods hr vs) fun _ => ne_ok _

theorem assign_bodily (hr : Returns lib) {key : String} {input : Calc.Kind} {ws : List Text} {s : Calc.Settings} {p : Calc.Plant} (hm : (key, input) ∈ allPasses)
    (hl : ws.length = 1 ∨ ws.length = 2 ∨ ws.length = 3 ∨ ws.length = 6) (h : Input.assign lib (key.toList :: ws) input s p = exit) : Bodily input := by
  have key : key = "accuracy" ∨ key = "max_iteration_number" ∨ key = "relaxation_parameter" ∨ Bodily input := by
    simp only [allPasses, passes, List.cons_append, List.nil_append, List.mem_cons, Prod.mk.injEq, List.not_mem_nil, or_false] at hm
    unfold Bodily neutronics
    rcases hm with ⟨rfl, rfl⟩ | ⟨rfl, rfl⟩ | ⟨rfl, rfl⟩ | ⟨rfl, rfl⟩ | ⟨rfl, rfl⟩ | ⟨rfl, rfl⟩ | ⟨rfl, rfl⟩ | ⟨rfl, rfl⟩ | ⟨rfl, rfl⟩ | ⟨rfl, rfl⟩ | ⟨rfl, rfl⟩ | ⟨rfl, rfl⟩ | ⟨rfl, rfl⟩ | ⟨rfl, rfl⟩ <;> simp
  have main : ∀ key : String, key = "accuracy" ∨ key = "max_iteration_number" ∨ key = "relaxation_parameter" → Input.assign lib (key.toList :: ws) input s p ≠ exit := by
    intro key hkey
    match ws, hl with
    | [a], _ =>
      show oneValue lib key.toList a input s p ≠ exit
      unfold oneValue
      rcases hkey with rfl | rfl | rfl
      · rw [if_pos rfl]
        exact ne_bind (hr.1 a) fun _ => ne_ok _
      · rw [if_neg (by decide), if_pos rfl]
        exact ne_bind (ne_stoi a) fun _ => ne_ok _
      · rw [if_neg (by decide), if_neg (by decide), if_pos rfl]
        exact ne_bind (hr.1 a) fun _ => ne_ok _
    | [a, b], _ =>
      show twoValues lib key.toList a b input s p ≠ exit
      unfold twoValues
      rw [if_neg (by rcases hkey with rfl | rfl | rfl <;> decide)]
      exact ne_ok _
    | [a, b, c], _ =>
      show threeValues lib key.toList a b c input s p ≠ exit
      unfold threeValues
      rw [if_neg (by rcases hkey with rfl | rfl | rfl <;> decide), if_neg (by rcases hkey with rfl | rfl | rfl <;> decide)]
      exact ne_ok _
    | [a, b, c, d, e, f], _ =>
      show sixValues lib key.toList [a, b, c, d, e, f] input s p ≠ exit
      unfold sixValues
      rw [if_neg (by rcases hkey with rfl | rfl | rfl <;> decide)]
      exact ne_ok _
  rcases key with e | e | e | e
  · exact absurd h (main _ (Or.inl e))
  · exact absurd h (main _ (Or.inr (Or.inl e)))
  · exact absurd h (main _ (Or.inr (Or.inr e)))
  · exact e

/-- A setting other than the number of groups is refused because of the words and the geometry. -/
theorem assign_exit (hr : Returns lib) {k : Text} (he : k ≠ "energies".toList) {input : Calc.Kind} {ws : List Text} {s : Calc.Settings} {p q : Calc.Plant} (hg : q.grid.geom = p.grid.geom)
    (h : Input.assign lib (k :: ws) input s p = exit) : Input.assign lib (k :: ws) input s q = exit := by
  unfold Input.assign at h ⊢
  split at h
  · cases h
  · rename_i e
    cases e
    show oneValue lib _ _ input s q = exit
    unfold oneValue at h ⊢
    rw [if_neg he] at h ⊢
    rw [hg]
    repeat' split at h
    all_goals first
      | exact absurd h (ne_bind (hr.1 _) fun _ => ne_ok _)
      | exact absurd h (ne_bind (ne_stoi _) fun _ => ne_ok _)
      | exact absurd h (ne_ok _)
      | simp_all
  · rename_i e
    cases e
    show twoValues lib _ _ _ input s q = exit
    unfold twoValues at h ⊢
    rw [hg]
    repeat' split at h
    all_goals first
      | exact absurd h (ne_bind (hr.1 _) fun _ => ne_bind (hr.1 _) fun _ => ne_ok _)
      | exact absurd h (ne_ok _)
      | simp_all
  · rename_i e
    cases e
    show threeValues lib _ _ _ _ input s q = exit
    unfold threeValues at h ⊢
    rw [hg]
    repeat' split at h
    all_goals first
      | exact absurd h (ne_bind (hr.1 _) fun _ => ne_bind (ne_stoi _) fun _ => ne_bind (ne_stoi _) fun _ => ne_ok _)
      | exact absurd h (ne_boundary hr _ _ _)
      | exact absurd h (ne_ok _)
      | simp_all
  · rename_i e
    cases e
    show sixValues lib _ _ input s q = exit
    unfold sixValues at h ⊢
    rw [hg]
    repeat' split at h
    all_goals first
      | exact absurd h (ne_boundary hr _ _ _)
      | exact absurd h (ne_ok _)
      | simp_all
  · rfl

theorem assign_unfit (hr : Returns lib) {key : String} {input : Calc.Kind} {ws : List Text} {s : Calc.Settings} {p : Calc.Plant} (hm : (key, input) ∈ allPasses)
    (hi : input = .undefined ∨ s.kind = input) (h : Input.assign lib (key.toList :: ws) input s p = exit) (E : Nat) : ¬ Fits lib p.grid.geom E s.kind key ws := by
  intro hf
  by_cases he : key.toList = "energies".toList
  · rw [he] at h
    have key1 : ∃ v, ws = [v] := by
      cases hf with
      | groups => exact ⟨_, rfl⟩
      | three => exact absurd he (by decide)
      | six => exact absurd he (by decide)
      | twoAlbedos => exact absurd he (by decide)
      | source => exact absurd he (by decide)
      | _ => exact ⟨_, rfl⟩
    obtain ⟨v, rfl⟩ := key1
    revert h
    show oneValue lib _ v input s p ≠ _
    unfold oneValue
    rw [if_neg (by decide), if_neg (by decide), if_neg (by decide), if_pos rfl]
    exact ne_bind (ne_stoi v) fun _ => ne_bind (ne_groups _ _) fun _ => ne_ok _
  · obtain ⟨x, hx, -⟩ := assign_ok (p := { p with grid := { p.grid with cells := 0 } }) hf hm hi (Or.inr (Or.inr ⟨rfl, Nat.zero_le _⟩))
    have h' := assign_exit (p := p) (q := { p with grid := { p.grid with cells := 0 } }) hr he rfl h
    exact absurd (h'.symm.trans hx) (by intro e; cases e)

/-- What the messages about the file rest on, between the stages of the reader. -/
structure Holds (ls : List Text) (ks : List Calc.Kind) (r : Reader) : Prop where
  lines : r.lines = ls
  kinds : r.solvers.map Calc.Settings.kind = everyone ks
  mats : ∀ w ∈ r.mats, Uses ls w
  geom : (∃ k ∈ ks, Bodily k) → ∃ c u, Card ls "geometry" [c, u] ∧ (u, r.plant.grid.geom) ∈ geometries

theorem Holds.frame {ks : List Calc.Kind} {r r' : Reader} (h : Holds lines ks r) (f : Frame r r') : Holds lines ks r' :=
  ⟨f.lines.trans h.lines, f.kinds.trans h.kinds, by rw [f.mats]; exact h.mats, by rw [f.grid.geom]; exact h.geom⟩

theorem bodily_coupled {k : Calc.Kind} (h : Bodily k) : k ≠ .coupled := by
  rintro rfl
  rcases h with h | h
  · simp [neutronics] at h
  · cases h

theorem loud_assign (hr : Returns lib) {ks : List Calc.Kind} (hk : Calls lines ks) {key : String} {input : Calc.Kind} (hm : (key, input) ∈ allPasses) {s : Calc.Settings}
    (hi : input = .undefined ∨ s.kind = input) (hs : s.kind ∈ everyone ks) (hkey : key ∈ allSettings s.kind) {p : Calc.Plant}
    (hgeom : (∃ k ∈ ks, Bodily k) → ∃ c u, Card lines "geometry" [c, u] ∧ (u, p.grid.geom) ∈ geometries) {a b : Nat} (hb : Block lines "solver".toList (blockName s.kind) a b)
    {ws : List Text} (hc : CardIn lines key.toList a b ws) : Loud (Complaint v lib lines) (assign lib ws input s p) := by
  unfold assign
  split
  · exact loud_lift ne_ub
  · rename_i w vs
    refine loud_ite (fun hl => loud_bind (loud_say _) fun _ _ => loud_orSay fun e => ?_) fun hl => loud_quit (.exceeded hk (.setting hs hkey hb) hc (by omega))
    rw [name_kind]
    refine .unfit hk hs hkey hb hc fun hp => ?_
    have hset : key ∈ settingKeys := by
      simp only [allPasses, passes, List.cons_append, List.nil_append, List.mem_cons, Prod.mk.injEq, List.not_mem_nil, or_false] at hm
      unfold settingKeys
      rcases hm with ⟨rfl, rfl⟩ | ⟨rfl, rfl⟩ | ⟨rfl, rfl⟩ | ⟨rfl, rfl⟩ | ⟨rfl, rfl⟩ | ⟨rfl, rfl⟩ | ⟨rfl, rfl⟩ | ⟨rfl, rfl⟩ | ⟨rfl, rfl⟩ | ⟨rfl, rfl⟩ | ⟨rfl, rfl⟩ | ⟨rfl, rfl⟩ | ⟨rfl, rfl⟩ | ⟨rfl, rfl⟩ <;> simp
    obtain ⟨us, hu⟩ := proper_card hp hset hc
    cases hu
    have hB := assign_bodily hr hm hl e
    have hin : s.kind = input := by
      rcases hi with rfl | hi
      · rcases hB with hB | hB
        · simp [neutronics] at hB
        · cases hB
      · exact hi
    rw [← hin] at hB
    obtain ⟨c, u, h1, h2⟩ := hgeom ⟨s.kind, (mem_everyone (bodily_coupled hB)).1 hs, hB⟩
    exact ⟨rfl, c, u, _, h1, h2, assign_unfit hr hm hi e⟩

theorem passes_settings {key : String} {input k : Calc.Kind} (hm : (key, input) ∈ allPasses) (hi : input = .undefined ∨ k = input) : key ∈ allSettings k := by
  simp only [allPasses, passes, List.cons_append, List.nil_append, List.mem_cons, Prod.mk.injEq, List.not_mem_nil, or_false] at hm
  unfold allSettings settingsOf
  rcases hm with ⟨rfl, rfl⟩ | ⟨rfl, rfl⟩ | ⟨rfl, rfl⟩ | ⟨rfl, rfl⟩ | ⟨rfl, rfl⟩ | ⟨rfl, rfl⟩ | ⟨rfl, rfl⟩ | ⟨rfl, rfl⟩ | ⟨rfl, rfl⟩ | ⟨rfl, rfl⟩ | ⟨rfl, rfl⟩ | ⟨rfl, rfl⟩ | ⟨rfl, rfl⟩ | ⟨rfl, rfl⟩ <;>
    rcases hi with hi | hi <;> first | (cases hi; done) | (subst hi; simp; done) | (simp; done)

theorem loud_property (hs : Sane lib) (hr : Returns lib) {ks : List Calc.Kind} (hk : Calls lines ks) {key : String} {input : Calc.Kind} (hm : (key, input) ∈ allPasses) {s : Calc.Settings}
    (hin : s.kind ∈ everyone ks) {p : Calc.Plant} (hgeom : (∃ k ∈ ks, Bodily k) → ∃ c u, Card lines "geometry" [c, u] ∧ (u, p.grid.geom) ∈ geometries) :
    Loud (Complaint v lib lines) (property lib lines key.toList input s p) := by
  unfold property
  refine loud_ite (fun _ => loud_pure _) fun hc => ?_
  have hi : input = .undefined ∨ s.kind = input := by
    by_cases h1 : input = .undefined
    · exact Or.inl h1
    · by_cases h2 : s.kind = input
      · exact Or.inr h2
      · exact absurd ⟨h1, h2⟩ hc
  have hkey := passes_settings hm hi
  refine loud_bind (loud_readOne hs hr hk (name_small _) (.solver hin)) fun _ _ => loud_bind (loud_lift (ne_block hr _ _ _ _ _)) fun b hb => ?_
  have hb := (block_small (solverName_small s.kind)).1 (findBlock_sound hs hb)
  refine loud_bind (loud_find hs hr hk rfl (.setting hin hkey hb)) fun l hl => ?_
  rw [findKeyword_res] at hl
  exact loud_assign hr hk hm hi hin hkey hgeom hb (findKeyword_card hs hl)

theorem loud_properties (hs : Sane lib) (hr : Returns lib) {ks : List Calc.Kind} (hk : Calls lines ks) {key : String} {input : Calc.Kind} (hm : (key, input) ∈ allPasses) :
    ∀ {ss : List Calc.Settings} {p : Calc.Plant}, (∀ s ∈ ss, s.kind ∈ everyone ks) → ((∃ k ∈ ks, Bodily k) → ∃ c u, Card lines "geometry" [c, u] ∧ (u, p.grid.geom) ∈ geometries) →
      Loud (Complaint v lib lines) (properties lib lines key.toList input ss p)
  | [], _, _, _ => loud_pure _
  | s :: ss, p, h, hg => by
    unfold properties
    refine loud_bind (loud_property hs hr hk hm (h s (by simp)) hg) fun x hx => loud_bind (loud_properties hs hr hk hm (fun s hs => h s (by simp [hs])) ?_) fun y _ => loud_pure _
    rw [property_res] at hx
    rw [(property_same hx).grid.geom]
    exact hg

theorem loud_setProperty (hs : Sane lib) (hr : Returns lib) {ks : List Calc.Kind} (hk : Calls lines ks) {key : String} {input : Calc.Kind} (hm : (key, input) ∈ allPasses) {r : Reader}
    (h : Holds lines ks r) : Loud (Complaint v lib lines) (setProperty lib key input r) := by
  unfold setProperty
  rw [h.lines]
  refine loud_bind (loud_properties hs hr hk hm (fun s hs => ?_) h.geom) fun x _ => loud_pure _
  rw [← h.kinds]
  exact List.mem_map_of_mem hs

theorem loud_step (hs : Sane lib) (hr : Returns lib) {ks : List Calc.Kind} (hk : Calls lines ks) {key : String} {input : Calc.Kind} (hm : (key, input) ∈ allPasses) {f : Reader → Tell Reader}
    (hf : ∀ r, Holds lines ks r → Loud (Complaint v lib lines) (f r)) : ∀ r, Holds lines ks r → Loud (Complaint v lib lines) (setProperty lib key input r >>= f) := fun r h =>
  loud_bind (loud_setProperty hs hr hk hm h) fun r' h' => hf r' (h.frame (setProperty_frame (by rw [setProperty_res] at h'; exact h')))

theorem loud_setSettings (hs : Sane lib) (hr : Returns lib) {ks : List Calc.Kind} (hk : Calls lines ks) : ∀ r, Holds lines ks r → Loud (Complaint v lib lines) (setSettings lib r) := by
  unfold setSettings
  iterate 13 refine loud_step hs hr hk (by simp [allPasses, passes]) ?_
  intro r h
  unfold setRelaxation
  exact loud_ite (fun _ => loud_setProperty hs hr hk (by simp [allPasses, passes]) h) fun _ => loud_pure _

/-! ### materials -/

theorem loud_eachMaterial (hs : Sane lib) (hr : Returns lib) {ks : List Calc.Kind} (hk : Calls lines ks) {k : Calc.Kind} (hm : k ∈ ks) (hn : k ≠ .kinetics) {map : List Text}
    {body : Nat × Nat → Nat → Mesh.Grid → Tell Mesh.Grid} (hbody : ∀ w, Uses lines w → ∀ b : Nat × Nat, Block lines "material".toList w b.1 b.2 → ∀ m g, Loud (Complaint v lib lines) (body b m g)) :
    ∀ {ws : List Text} {g : Mesh.Grid}, (∀ w ∈ ws, Uses lines w) → Loud (Complaint v lib lines) (eachMaterial lib lines map body ws g)
  | [], _, _ => loud_pure _
  | w :: ws, g, h => by
    unfold eachMaterial
    refine loud_bind (loud_readOne hs hr hk rfl (.material (h w (by simp)) hm hn)) fun _ _ => loud_bind (loud_lift (ne_block hr _ _ _ _ _)) fun b hb => ?_
    refine loud_bind (loud_loop (fun m g => loud_bind (loud_lift (ne_get _ _)) fun x _ => loud_ite (fun _ => hbody w (h w (by simp)) b (findBlock_sound hs hb) m g) fun _ => loud_pure _) _ _) fun g' _ => ?_
    exact loud_eachMaterial hs hr hk hm hn hbody fun w hw => h w (by simp [hw])

theorem loud_readLaw (hs : Sane lib) (hr : Returns lib) {ks : List Calc.Kind} (hk : Calls lines ks) {key key' : Text} (e : key = key') {b : Nat × Nat} (hn : Needs lines ks key' b.1 b.2) {n : Nat}
    {put : Mesh.Material → Vec ℝ → Mesh.Material} {m : Nat} {g : Mesh.Grid} : Loud (Complaint v lib lines) (readLaw v lib lines b key n put m g) := by
  unfold readLaw
  exact loud_bind (loud_find hs hr hk (congrArg small e) hn) fun l _ => loud_bind (loud_lift (ne_skip _ _)) fun ws _ => loud_bind (loud_lift (ne_addLaw hr _ _ _ _)) fun g _ =>
    loud_bind (loud_lift (ne_formatLine hr _)) fun t _ => loud_bind (loud_say _) fun _ _ => loud_pure _

theorem neutronic {k : Calc.Kind} (h : k ∈ neutronics) : k ≠ .kinetics := by
  rintro rfl
  simp [neutronics] at h

theorem loud_setXS (hs : Sane lib) (hr : Returns lib) {ks : List Calc.Kind} (hk : Calls lines ks) {k : Calc.Kind} (hm : k ∈ ks) (hn : k ∈ neutronics) {name title : String} (ht : name ∈ tables k)
    {put : Mesh.Material → Vec ℝ → Mesh.Material} {r : Reader} (h : Holds lines ks r) : Loud (Complaint v lib lines) (setXS v lib name title put r) := by
  unfold setXS
  rw [h.lines]
  refine loud_bind (loud_say _) fun _ _ => loud_bind (loud_eachMaterial hs hr hk hm (neutronic hn) (fun w hw b hb m g => ?_) h.mats) fun g _ => loud_pure _
  exact loud_bind (loud_loop (fun i g => loud_readLaw hs hr hk (groupKey_eq name i) (.table hw hm hn ht i hb)) _ _) fun g _ => loud_bind (loud_say _) fun _ _ => loud_pure _

theorem loud_setScattering (hs : Sane lib) (hr : Returns lib) {ks : List Calc.Kind} (hk : Calls lines ks) {k : Calc.Kind} (hm : k ∈ ks) (hn : k ∈ neutronics) {r : Reader} (h : Holds lines ks r) :
    Loud (Complaint v lib lines) (setScattering v lib r) := by
  unfold setScattering
  rw [h.lines]
  refine loud_bind (loud_say _) fun _ _ => loud_bind (loud_eachMaterial hs hr hk hm (neutronic hn) (fun w hw b hb m g => ?_) h.mats) fun g _ => loud_pure _
  refine loud_loop (fun i g => ?_) _ _
  exact loud_bind (loud_loop (fun j g => loud_readLaw hs hr hk (scattKey_eq i j) (.scattering hw hm hn i j hb)) _ _) fun g _ => loud_bind (loud_say _) fun _ _ => loud_pure _

theorem loud_then {ks : List Calc.Kind} {m : Tell Reader} {o : Outcome Reader} {f : Reader → Tell Reader} {r : Reader} (hm : Loud P m) (he : m.res = o) (hfr : ∀ r', o = ok r' → Frame r r')
    (h : Holds lines ks r) (hf : ∀ r', Holds lines ks r' → Loud P (f r')) : Loud P (m >>= f) :=
  loud_bind hm fun r' hr' => hf r' (h.frame (hfr r' (he ▸ hr')))

theorem loud_setNuclear (hs : Sane lib) (hr : Returns lib) {ks : List Calc.Kind} (hk : Calls lines ks) {k : Calc.Kind} (hm : k ∈ ks) (hn : k ∈ neutronics) {d : Bool}
    (hd : d = true → k = .diffusion ∨ k = .ads) {r : Reader} (h : Holds lines ks r) : Loud (Complaint v lib lines) (setNuclear v lib d r) := by
  unfold setNuclear
  refine loud_then (loud_setXS hs hr hk hm hn (by simp [tables]) h) (setXS_res ..) (fun r' hr' => (setXS_frame hr' (fun _ _ => rfl)).1) h fun r h => ?_
  refine loud_then (loud_setXS hs hr hk hm hn (by simp [tables]) h) (setXS_res ..) (fun r' hr' => (setXS_frame hr' (fun _ _ => rfl)).1) h fun r h => ?_
  refine loud_then (loud_setXS hs hr hk hm hn (by simp [tables]) h) (setXS_res ..) (fun r' hr' => (setXS_frame hr' (fun _ _ => rfl)).1) h fun r h => ?_
  refine loud_then (loud_setXS hs hr hk hm hn (by simp [tables]) h) (setXS_res ..) (fun r' hr' => (setXS_frame hr' (fun _ _ => rfl)).1) h fun r h => ?_
  cases d with
  | false => exact loud_then (o := ok r) (loud_pure _) rfl (fun r' hr' => by cases hr'; exact Frame.refl _) h fun r h => loud_setScattering hs hr hk hm hn h
  | true =>
    refine loud_then (loud_setXS hs hr hk hm hn ?_ h) (setXS_res ..) (fun r' hr' => (setXS_frame hr' (fun _ _ => rfl)).1) h fun r h => loud_setScattering hs hr hk hm hn h
    simp [tables, hd rfl]

/-! ### the rest -/

theorem loud_conductivityLaw (hr : Returns lib) {ks : List Calc.Kind} (hk : Calls lines ks) {key : Text} {b : Nat × Nat} (hn : Needs lines ks key b.1 b.2) {ws : List Text} (hc : CardIn lines key b.1 b.2 ws)
    {m : Nat} {g : Mesh.Grid} : Loud (Complaint v lib lines) (conductivityLaw v lib ws m g) := by
  unfold conductivityLaw
  split
  · exact loud_lift ne_ub
  · exact loud_quit (.none hk hn hc)
  · refine loud_ite (fun _ => loud_bind (loud_lift (ne_stods hr _)) fun xs _ => loud_bind (loud_lift (ne_change _ _ _)) fun g _ => loud_bind (loud_lift (ne_formatLine hr _)) fun t _ =>
      loud_bind (loud_say _) fun _ _ => loud_pure _) fun hl => loud_quit (.exceeded hk hn hc (by omega))

theorem loud_setConductivity (hs : Sane lib) (hr : Returns lib) {ks : List Calc.Kind} (hk : Calls lines ks) (hm : .heat ∈ ks) {r : Reader} (h : Holds lines ks r) :
    Loud (Complaint v lib lines) (setConductivity v lib r) := by
  unfold setConductivity
  rw [h.lines]
  refine loud_bind (loud_say _) fun _ _ => loud_bind (loud_eachMaterial hs hr hk hm (by simp) (fun w hw b hb m g => ?_) h.mats) fun g _ => loud_pure _
  refine loud_bind (loud_find hs hr hk rfl (.conductivity hw hm hb)) fun l hl => ?_
  rw [findKeyword_res] at hl
  exact loud_conductivityLaw hr hk (.conductivity hw hm hb) (findKeyword_card hs hl)

theorem loud_setKinetics (hs : Sane lib) (hr : Returns lib) {ks : List Calc.Kind} (hk : Calls lines ks) (hm : .kinetics ∈ ks) {r : Reader} (h : Holds lines ks r) :
    Loud (Complaint v lib lines) (setKinetics v lib r) := by
  unfold setKinetics
  rw [h.lines]
  refine loud_bind (loud_readOne hs hr hk rfl (.kinetics (by simp [kineticsKeys]) hm)) fun a _ => loud_bind (loud_lift (hr.1 _)) fun alpha _ => loud_bind (loud_say _) fun _ _ => ?_
  refine loud_bind (loud_readOne hs hr hk rfl (.kinetics (by simp [kineticsKeys]) hm)) fun w _ => loud_bind (loud_lift (hr.1 _)) fun power _ => loud_bind (loud_say _) fun _ _ => ?_
  refine loud_bind (loud_readValues hs hr hk (.kinetics (by simp [kineticsKeys]) hm)) fun lam _ => ?_
  refine loud_bind (loud_readValues hs hr hk (.kinetics (by simp [kineticsKeys]) hm)) fun beta _ => ?_
  refine loud_bind (loud_readValues hs hr hk (.kinetics (by simp [kineticsKeys]) hm)) fun times ht => ?_
  refine loud_bind (loud_readValues hs hr hk (.kinetics (by simp [kineticsKeys]) hm)) fun rhos hrho => ?_
  rw [readValues_res] at ht hrho
  obtain ⟨c, ws, h1, h2⟩ := readValues_lists (key := "times") hs ht
  obtain ⟨c', ws', h3, h4⟩ := readValues_lists (key := "reactivities") hs hrho
  refine loud_ite (fun _ => loud_pure _) fun hne => loud_bind (loud_say _) fun _ _ => loud_quit ?_
  rw [show number times.n = (toString times.n).toList from by
    rw [show toString times.n = String.ofList (Nat.toDigits 10 times.n) from rfl, String.toList_ofList]
    rfl]
  exact .sizes hk hm h1 h2 h3 h4 hne

theorem loud_setHeat (hs : Sane lib) (hr : Returns lib) {ks : List Calc.Kind} (hk : Calls lines ks) (hm : .heat ∈ ks) {r : Reader} (h : Holds lines ks r) :
    Loud (Complaint v lib lines) (setHeat v lib r) := by
  unfold setHeat
  refine loud_then ?_ (setLoad_res ..) (fun r' hr' => (setLoad_frame hr').1) h fun r h => ?_
  · unfold setLoad
    have here : ∀ k, k ≠ .coupled → (isHere r.solvers k = true ↔ k ∈ ks) := fun k hc => by
      rw [isHere_iff, h.kinds, mem_everyone hc]
    refine loud_ite (fun hc => ?_) fun hc => ?_
    · rw [Bool.or_eq_true, here _ (by simp), here _ (by simp)] at hc
      unfold setPower
      rw [h.lines]
      refine loud_bind (loud_readOne hs hr hk rfl (.power hm hc)) fun w _ => loud_bind (loud_lift (hr.1 _)) fun x _ => loud_bind (loud_lift (ne_formatWord hr _)) fun t _ =>
        loud_bind (loud_say _) fun _ _ => loud_pure _
    · rw [Bool.or_eq_true, here _ (by simp), here _ (by simp), not_or] at hc
      unfold setSources
      rw [h.lines]
      exact loud_bind (loud_readValues hs hr hk (.sources hm hc)) fun q _ => loud_bind (loud_lift (ne_sources _ _)) fun g _ => loud_pure _
  · refine loud_then (loud_setConductivity hs hr hk hm h) (setConductivity_res ..) (fun r' hr' => (setConductivity_frame hr').1) h fun r h => ?_
    unfold setTemps
    rw [h.lines]
    exact loud_bind (loud_readValues hs hr hk (.temperatures hm)) fun q _ => loud_bind (loud_lift (ne_temps _ _)) fun g _ => loud_pure _

theorem loud_setData (hs : Sane lib) (hr : Returns lib) {ks : List Calc.Kind} (hk : Calls lines ks) {k : Calc.Kind} (hm : k ∈ everyone ks) {r : Reader} (h : Holds lines ks r) :
    Loud (Complaint v lib lines) (setData v lib k r) := by
  cases k with
  | undefined => exact loud_pure _
  | coupled => exact loud_pure _
  | transport => exact loud_setNuclear hs hr hk ((mem_everyone (by simp)).1 hm) (by simp [neutronics]) (by simp) h
  | diffusion => exact loud_setNuclear hs hr hk ((mem_everyone (by simp)).1 hm) (by simp [neutronics]) (by simp) h
  | ads => exact loud_setNuclear hs hr hk ((mem_everyone (by simp)).1 hm) (by simp [neutronics]) (by simp) h
  | heat => exact loud_setHeat hs hr hk ((mem_everyone (by simp)).1 hm) h
  | kinetics => exact loud_setKinetics hs hr hk ((mem_everyone (by simp)).1 hm) h

theorem loud_setAll (hs : Sane lib) (hr : Returns lib) {ks : List Calc.Kind} (hk : Calls lines ks) : ∀ {ss : List Calc.Settings}, (∀ s ∈ ss, s.kind ∈ everyone ks) → ∀ {r : Reader}, Holds lines ks r →
    Loud (Complaint v lib lines) (setAll v lib ss r)
  | [], _, _, _ => loud_pure _
  | s :: ss, hin, r, h => by
    unfold setAll
    exact loud_then (loud_setData hs hr hk (hin s (by simp)) h) (setData_res ..) (fun r' hr' => (setData_frame hr').1) h fun r h =>
      loud_setAll hs hr hk (fun s hs => hin s (by simp [hs])) h

/-! ### the whole input -/

theorem regions_mem {ws : List Text} {c : List Nat × List ℝ × List Text} (h : regions lib ws = ok c) : ∀ w ∈ c.2.2, w ∈ ws := by
  induction ws using regions.induct generalizing c with
  | case1 =>
    cases h
    simp
  | case2 n =>
    obtain ⟨n, -, h⟩ := bind_eq_ok.1 h
    cases h
    simp
  | case3 n d =>
    obtain ⟨n, -, h⟩ := bind_eq_ok.1 h
    obtain ⟨n, -, h⟩ := bind_eq_ok.1 h
    cases h
    simp
  | case4 n d m l ih =>
    obtain ⟨n, -, h⟩ := bind_eq_ok.1 h
    obtain ⟨x, -, h⟩ := bind_eq_ok.1 h
    obtain ⟨r, hr, h⟩ := bind_eq_ok.1 h
    cases h
    intro w hw
    rcases List.mem_cons.1 hw with rfl | hw
    · simp
    · simp [ih hr w hw]

theorem mem_insertText {w x : Text} {l : List Text} (h : x ∈ insertText w l) : x = w ∨ x ∈ l := by
  induction l with
  | nil => simpa [insertText] using h
  | cons v l ih =>
    unfold insertText at h
    split at h
    · rcases List.mem_cons.1 h with rfl | h
      · simp
      · rcases ih h with h | h <;> simp [h]
    · simpa using h

theorem mem_sortText {x : Text} {l : List Text} (h : x ∈ sortText l) : x ∈ l := by
  induction l with
  | nil => exact h
  | cons w l ih =>
    rcases mem_insertText h with rfl | h
    · simp
    · simp [ih h]

theorem mem_uniqueText {x : Text} {l : List Text} (h : x ∈ uniqueText l) : x ∈ l := by
  induction l using uniqueText.induct with
  | case1 => exact h
  | case2 w => exact h
  | case3 v l ih =>
    unfold uniqueText at h
    rw [if_pos rfl] at h
    simp [ih h]
  | case4 w v l hne ih =>
    unfold uniqueText at h
    rw [if_neg hne] at h
    rcases List.mem_cons.1 h with rfl | h
    · simp
    · exact List.mem_cons_of_mem _ (ih h)

theorem bodily_here {ks : List Calc.Kind} {r : Reader} (hk : r.solvers.map Calc.Settings.kind = everyone ks) :
    (isHere r.solvers .transport || isHere r.solvers .diffusion || isHere r.solvers .ads || isHere r.solvers .heat) = true ↔ ∃ k ∈ ks, Bodily k := by
  simp only [Bool.or_eq_true, isHere_iff, hk]
  rw [mem_everyone (by simp), mem_everyone (by simp), mem_everyone (by simp), mem_everyone (by simp)]
  unfold Bodily neutronics
  constructor
  · rintro (((h | h) | h) | h)
    all_goals exact ⟨_, h, by simp⟩
  · rintro ⟨k, h, hB⟩
    simp only [List.mem_cons, List.not_mem_nil, or_false] at hB
    rcases hB with (rfl | rfl | rfl) | rfl <;> simp [h]

theorem bodily_kinetics {k : Calc.Kind} (h : Bodily k) : k ≠ .kinetics := by
  rintro rfl
  rcases h with h | h
  · simp [neutronics] at h
  · cases h

theorem loud_setShape (hs : Sane lib) (hr : Returns lib) {ks : List Calc.Kind} (hk : Calls lines ks) {r : Reader} (hl : r.lines = lines)
    (hkinds : r.solvers.map Calc.Settings.kind = everyone ks) : Loud (Complaint v lib lines) (setShape v lib r) := by
  unfold setShape
  refine loud_ite (fun hc => ?_) fun _ => loud_pure _
  obtain ⟨k, hm, hB⟩ := (bodily_here hkinds).1 hc
  refine loud_bind (loud_setGeometry hs hr hk hm (bodily_kinetics hB) hl) fun r' hr' => loud_setMesh hs hr hk hm (bodily_kinetics hB) ?_
  rw [setGeometry_res] at hr'
  obtain ⟨g, -, rfl⟩ := setGeometry_eq hr'
  exact hl

theorem holds_setShape (hs : Sane lib) {ks : List Calc.Kind} {r r' : Reader} (hl : r.lines = lines)
    (hkinds : r.solvers.map Calc.Settings.kind = everyone ks) (hm : r.mats = []) (h : Input.setShape lib r = ok r') : Holds lines ks r' := by
  obtain ⟨a, b, -⟩ := setShape_solvers h
  unfold Input.setShape at h
  by_cases hc : ∃ k ∈ ks, Bodily k
  · rw [if_pos ((bodily_here hkinds).2 hc)] at h
    obtain ⟨r1, h1, h⟩ := bind_eq_ok.1 h
    obtain ⟨w, hw, h1⟩ := bind_eq_ok.1 h1
    obtain ⟨g, hg, h1⟩ := bind_eq_ok.1 h1
    cases h1
    have hgeom := (setMesh_solvers h).2.2.2.2
    refine ⟨a.trans hl, by rw [b, hkinds], ?_, fun _ => ?_⟩
    · obtain ⟨ws, hws, h⟩ := bind_eq_ok.1 h
      obtain ⟨c, hcc, h⟩ := bind_eq_ok.1 h
      obtain ⟨_, -, h⟩ := bind_eq_ok.1 h
      obtain ⟨_, -, h⟩ := bind_eq_ok.1 h
      obtain ⟨_, -, h⟩ := bind_eq_ok.1 h
      obtain ⟨_, -, h⟩ := bind_eq_ok.1 h
      obtain ⟨_, -, h⟩ := bind_eq_ok.1 h
      obtain ⟨_, -, h⟩ := bind_eq_ok.1 h
      cases h
      intro w hw
      have hw := regions_mem hcc w (mem_sortText (mem_uniqueText hw))
      rcases readMany_sound hs hws with ⟨k, -, hcard⟩ | ⟨rfl, -⟩
      · rw [← hl]
        exact ⟨k, ws, hcard, hw⟩
      · obtain ⟨n, hn, -⟩ := bind_eq_ok.1 hcc
        exact absurd hn (by intro e; cases e)
    · obtain ⟨c, hcard⟩ := readOne_sound hs hw
      rw [hgeom]
      rw [hl] at hcard
      exact ⟨c, w, hcard, geomOf_sound hg⟩
  · rw [if_neg (fun e => hc ((bodily_here hkinds).1 e))] at h
    cases h
    exact ⟨hl, hkinds, by rw [hm]; simp, fun e => absurd e hc⟩

/-- The reader after the lines are stored. -/
theorem loud_lines (hs : Sane lib) (hr : Returns lib) (p : Calc.Plant) : Loud (Complaint v lib lines)
    (setSolvers lib ⟨lines, [], p, [], [], []⟩ >>= fun r => setShape v lib r >>= fun r => setSettings lib r >>= fun r => setAll v lib r.solvers r >>= fun r => setPlots lib r) := by
  refine loud_bind (loud_setSolvers hs hr rfl) fun r1 h1 => ?_
  rw [setSolvers_res] at h1
  obtain ⟨c, ws, ks, hc, hn, rfl⟩ := setSolvers_sound hs h1
  have hk : Calls lines ks := ⟨c, ws, hc, hn⟩
  refine loud_bind (loud_setShape hs hr hk rfl (newSolver_kinds _)) fun r2 h2 => ?_
  rw [setShape_res] at h2
  have H2 := holds_setShape (lines := lines) (ks := ks) hs rfl (newSolver_kinds _) rfl h2
  refine loud_bind (loud_setSettings hs hr hk _ H2) fun r3 h3 => ?_
  rw [setSettings_res] at h3
  have H3 := H2.frame (setSettings_frame h3)
  refine loud_bind (loud_setAll hs hr hk (fun s hs => ?_) H3) fun r4 h4 => ?_
  · rw [← H3.kinds]
    exact List.mem_map_of_mem hs
  rw [setAll_res] at h4
  exact loud_plots hs hr (H3.frame (setAll_frame h4).1).lines

end

end Verif.Echo
