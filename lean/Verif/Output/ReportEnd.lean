import Verif.Output.ReportPart
import Verif.Output.Props

/-! # Lemmas: from the results of a calculation to the end of the program -/

namespace Verif.Output

open Verif Outcome Input

noncomputable section

variable {e : Env} {disk : Text → Option (List Text)} {prog input output base : Text} {names raw lines : List Text} {p p' : Calc.Plant} {want : List Plot} {ls : List Calc.Settings}

theorem shown_append (a : Level) (x y : List Message) : shown a (x ++ y) = shown a x ++ shown a y := by
  unfold shown
  rw [List.filter_append, List.map_append]

theorem shown_urgent (a : Level) (x : List Text) : shown a (urgent x) = x := by
  unfold shown urgent
  rw [List.filter_eq_self.2]
  · simp
  · intro m hm
    obtain ⟨t, -, rfl⟩ := List.mem_map.1 hm
    simp [Level.rank]

theorem started_names (h : Started e disk input output names base) : namesOf input output = names ∧ baseName (namePart input) = base := by
  obtain ⟨dir, name, outDir, outName, hi, hb, ho, rfl⟩ := h.named
  obtain ⟨i1, i2⟩ := parts hi
  obtain ⟨-, o2⟩ := parts ho
  constructor
  · unfold namesOf
    rw [i1, i2, o2]
  · rw [i2, baseName_dot hb (by obtain ⟨-, -, -, h⟩ := hi; exact h)]

theorem work_eq (h : Started e disk input output names base) {r : Reader} (hr : readData e.lib (disk input) e.plant = ok r) :
    work e disk input = calculate e base r.plots r.plant r.solvers := by
  unfold work
  rw [hr, ok_bind, (started_names h).2]

theorem work_logged (h : Started e disk input output names base) (a : Level) {x : Report} (hw : work e disk input = ok x) :
    Logged e a output names (e.talk (disk input)) x.plant x.lines x.figures ((main e [prog, input, output, a.word]).run (World.start disk)) := by
  have hm := main_word prog h.free h.apart a
  refine ⟨?_, ?_, ?_⟩
  · rw [hm.result, hw, ok_bind]
  · rw [hm.files, Function.update_self, hw, (started_names h).1]
    show some ([] ++ opening e ++ shown a (urgent names ++ e.talk (disk input) ++ urgent x.lines) ++ closing e) = _
    rw [shown_append, shown_append, shown_urgent, shown_urgent]
    simp only [List.append_assoc, List.nil_append]
  · rw [hm.figures, hw]
    rfl

/-- a calculation that fails does so before anything is printed -/
theorem calculate_fails (hads : ∀ o ∈ ls, o.kind ≠ .ads) (h : ∀ p', Calc.problem e.tools p ls ≠ ok p') : (calculate e base want p ls >>= fun x => ok x.plant) = Calc.problem e.tools p ls := by
  unfold calculate
  unfold Calc.problem at h ⊢
  split
  · rename_i o
    dsimp only at h ⊢
    split_ifs at h ⊢ with ho
    · exact absurd ho (hads o (by simp))
    · unfold single
      unfold Calc.single at h ⊢
      cases ha : Calc.solver e.tools o with
      | ok a =>
        rw [ha, ok_bind] at h
        rw [ok_bind, ok_bind]
        cases hs : a.solve p with
        | ok r =>
          rw [hs] at h
          exact absurd rfl (h r.1)
        | _ => rfl
      | _ => rfl
  · rename_i o1 o2 o3
    dsimp only at h ⊢
    unfold double
    unfold Calc.double at h ⊢
    cases hc : Calc.coupledSettings [o1, o2, o3] with
    | ok c =>
      rw [hc, ok_bind] at h
      rw [ok_bind, ok_bind]
      split_ifs at h ⊢
      · cases ha : Calc.solver e.tools o1 with
        | ok a =>
          rw [ha, ok_bind] at h
          rw [ok_bind, ok_bind]
          cases hb : Calc.solver e.tools o2 with
          | ok b =>
            rw [hb, ok_bind] at h
            rw [ok_bind, ok_bind]
            cases hs : Calc.coupled e.tools.big a b c.relax c.acc c.maxIter p with
            | ok r =>
              rw [hs] at h
              exact absurd rfl (h r.1)
            | _ => rfl
          | _ => rfl
        | _ => rfl
      · rfl
    | _ => rfl
  · rename_i h1 h2
    split
    · exact absurd rfl (h1 _)
    · exact absurd rfl (h2 _ _ _)
    · rfl

end

end Verif.Output
