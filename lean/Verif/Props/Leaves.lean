import Verif.Props.Best

/-!
# C103: the operands that are not operations

What `?duration`, `total-time` and `(is-violated p)` stand for, and with C106 (a numeric expression has
the same value in a durative action) what all operands of durative actions stand for.
-/

namespace Pddl

/-- C103. `?duration` can be read in a durative action, and it stands for the duration. -/
theorem C103_duration (M : Interp) (e : M.Env) (d : M.Num) : ∃ v, ReadsAs parseFExpDa v c!"?duration" ∧
    v.denote M e d = d :=
  ⟨_, ⟨.cons (by decide) (by decide) _, rfl⟩, rfl⟩

/-- C103. `total-time` can be read in a metric, and it stands for the time the plan takes. -/
theorem C103_total_time (M : Interp) (d : M.Num) (n : List Char → M.Num) :
    ∃ v, ReadsAs parseMetricFExp v c!"total-time" ∧ v.denote M d n = d := by
  refine ⟨.totalTime, ⟨.cons (by decide) (by decide) _, ?_⟩, rfl⟩
  simpa using metric_arith.run (r := []) (.leaf .totalTime) trivial

/-- C103. `(is-violated p)`, with any layout, stands for the number of times that the preference `p` is
violated. -/
theorem C103_is_violated (M : Interp) (d : M.Num) (n : List Char → M.Num) {g g' p : List Char} (hg : Gap g)
    (hp : IsWord p) (hg' : Gap g') :
    ∃ v, ReadsAs parseMetricFExp v (paren (c!"is-violated" ++ (g ++ (p ++ g')))) ∧ v.denote M d n = n p := by
  refine ⟨.isViolated (Name.new p), ⟨solid_paren _, ?_⟩, ?_⟩
  · simpa using metric_arith.run (r := []) (.leaf (.isViolated (g := []) .nil hg (.of_word hp) hg')) trivial
  · show n (Name.new p).text = _
    rw [Name.text_new]

/-- C103. A difference of the duration and something else. -/
theorem C103_duration_minus (M : Interp) (hM : M.Lawful) (e : M.Env) (d : M.Num) {g k k' x : List Char}
    {w : FExp} {v : FExpDa} (hg : Gap g) (hk : Sep k) (hk' : Sep k') (hx : ReadsAs parseFExp w x)
    (hv : ReadsAs parseFExpDa v (paren (g ++ (c!"-" ++ (k ++ (c!"?duration" ++ (k' ++ (x ++ []))))))) ) :
    v.denote M e d = M.bin .sub d (w.denote M e) := by
  obtain ⟨a, ha, hd⟩ := C103_duration M e d
  have hl := ((C106_expressions _ x).mpr ⟨w, rfl, hx⟩).1
  rw [C103_durative_operation M hM e d (op := .sub) hg (.cons hk ha (.cons hk' hl .nil)) hv]
  show M.bin .sub (a.denote M e d) ((w.lift).denote M e d) = _
  rw [hd, FExp.lift_denote]

example : ∃ v, ReadsAs parseMetricFExp v c!"(is-violated\n p1 )" ∧
    v.denote exWhole (0 : Int) (fun _ => (1 : Int)) = (1 : Int) :=
  C103_is_violated exWhole (0 : Int) (fun _ => (1 : Int)) (g := c!"\n ") (p := c!"p1") (g' := c!" ")
    (.space (by decide) (.space (by decide) .nil)) ⟨'p', c!"1", rfl, by decide, by decide⟩ (.space (by decide) .nil)

example : ∃ w v, ReadsAs parseFExp w c!"(f a)" ∧ ReadsAs parseFExpDa v c!"(- ?duration (f a))" ∧
    v.denote exWhole (fun _ => (0 : Nat)) (5 : Int) =
      exWhole.bin .sub (5 : Int) (w.denote exWhole (fun _ => (0 : Nat))) :=
  ⟨_, _, ⟨solid_open _, rfl⟩, ⟨solid_open _, rfl⟩, rfl⟩

end Pddl
