import Verif.Props.ReadBack

/-!
# C49: spelling determines meaning

The grammar of `Verif/Spec/Grammar.lean` relates values and texts without mentioning the parsers.
Here: no text is a (strict) spelling of two different values of a category, and the canonical text
of a value identifies it among the values that can be written.
-/

namespace Pddl

/-- `R` gives a text at most one meaning. -/
def Unambiguous (R : α → List Char → Prop) : Prop := ∀ v w t, R v t → R w t → v = w

/-- `pr` sends different values that can be written to different texts. -/
def Faithful (ok : α → Bool) (pr : α → List Char) : Prop :=
  ∀ v w, ok v = true → ok w = true → pr v = pr w → v = w

theorem Unambiguous.of_acc {p : P α} {F : List Char → Prop} {R : α → List Char → Prop} (hF : F [])
    (h : ∀ v t, R v t → Acc p F v t) : Unambiguous R := by
  intro v w t hv hw
  have := (h v t hv [] hF).symm.trans (h w t hw [] hF)
  injection this

theorem Unambiguous.faithful {R : α → List Char → Prop} {ok : α → Bool} {pr : α → List Char}
    (h : Unambiguous R) (hp : ∀ v, ok v = true → R v (pr v)) : Faithful ok pr :=
  fun v w hv hw e => h v w (pr v) (hp v hv) (e ▸ hp w hw)

private theorem Unambiguous.of_stop {p : P α} {R : α → List Char → Prop}
    (h : ∀ v t, R v t → Acc p Stop v t) : Unambiguous R := .of_acc Stop.nil h

private theorem Unambiguous.of_any {p : P α} {R : α → List Char → Prop}
    (h : ∀ v t, R v t → Acc p Any v t) : Unambiguous R := .of_acc (F := Any) trivial h

/-! ## No text has two meanings -/

theorem C49_names : Unambiguous NameW := .of_stop fun _ _ h => h.acc
theorem C49_numbers : Unambiguous NumW := .of_stop fun _ _ h => h.acc
theorem C49_variables : Unambiguous (VarW .strict) := .of_stop fun _ _ h => h.acc
theorem C49_variable_lists : Unambiguous (VarsW .strict) := .of_stop fun _ _ h => h.elem.1
theorem C49_terms : Unambiguous (TermW .strict) := .of_stop fun _ _ h => h.acc
theorem C49_function_terms : Unambiguous (FnTermW .strict) := .of_acc (p := parseFunctionTerm) trivial fun _ _ h => h.acc
theorem C49_atoms : Unambiguous (AtomW .strict (TermW .strict)) := .of_any fun _ _ h => h.acc_term
theorem C49_literals : Unambiguous (LiteralW .strict) := .of_stop fun _ _ h => h.elem.1
theorem C49_skeletons : Unambiguous (SkeletonW .strict) := .of_stop fun _ _ h => h.elem.1
theorem C49_f_heads : Unambiguous (FHeadW .strict) := .of_stop fun _ _ h => h.acc
theorem C49_f_exps : Unambiguous (FExpW .strict) := .of_stop fun _ _ h => h.acc
theorem C49_f_exps_da : Unambiguous (FExpDaW .strict) := .of_stop fun _ _ h => h.acc
theorem C49_f_exps_t : Unambiguous (FExpTW .strict) := .of_any fun _ _ h => h.acc
theorem C49_f_comps : Unambiguous (FCompW .strict) := .of_any fun _ _ h => h.acc
theorem C49_goals : Unambiguous (GDW .strict) := .of_any fun _ _ h => h.acc
theorem C49_preferences : Unambiguous (PrefGDW .strict) := .of_any fun _ _ h => h.acc
theorem C49_preconditions : Unambiguous (PreGDW .strict) := .of_any fun _ _ h => h.acc
theorem C49_constraints : Unambiguous (ConGDW .strict) := .of_any fun _ _ h => h.acc
theorem C49_constraint_operands : Unambiguous (Con2W .strict (ConGDW .strict)) := .of_stop fun _ _ h => h.elem.1
theorem C49_pref_constraints : Unambiguous (PrefConGDW .strict) := .of_any fun _ _ h => h.acc
theorem C49_p_effects : Unambiguous (PEffectW .strict) := .of_any fun _ _ h => h.acc
theorem C49_cond_effects : Unambiguous (CondEffectW .strict) := .of_any fun _ _ h => h.acc
theorem C49_c_effects : Unambiguous (CEffectW .strict) := .of_any fun _ _ h => h.acc
theorem C49_effects : Unambiguous (EffectW (CEffectW .strict)) := .of_any fun _ _ h => h.full.1
theorem C49_actions : Unambiguous (ActionW .strict) := .of_any fun _ _ h => h.acc
theorem C49_derived : Unambiguous (DerivedW .strict) := .of_any fun _ _ h => h.acc
theorem C49_timed_goals : Unambiguous (TimedGDW .strict) := .of_any fun _ _ h => h.acc
theorem C49_durative_goals : Unambiguous (DaGDW .strict) := .of_any fun _ _ h => h.full.1
theorem C49_timed_effects : Unambiguous (TimedEffectW .strict) := .of_any fun _ _ h => h.acc
theorem C49_durative_effects : Unambiguous (DaEffectW .strict) := .of_any fun _ _ h => h.full.1
theorem C49_durations : Unambiguous (SimpleDurationW .strict) := .of_any fun _ _ h => h.acc
theorem C49_duration_constraints : Unambiguous (DurationW .strict) := by
  intro v w t hv hw
  have := (hv.acc [] trivial).symm.trans (hw.acc [] trivial)
  injection this with h
  injection h
theorem C49_durative_actions : Unambiguous (DaDefW .strict) := .of_any fun _ _ h => h.acc
theorem C49_structures : Unambiguous (StructureW .strict) := .of_any fun _ _ h => h.acc
theorem C49_init_elements : Unambiguous (InitElW .strict) := .of_stop fun _ _ h => h.elem.1
theorem C49_metric_exps : Unambiguous (MetricW .strict) := .of_stop fun _ _ h => h.elem.1
theorem C49_metrics : Unambiguous (MetricSpecW .strict) := .of_any fun _ _ h => h.full.1
theorem C49_lengths : Unambiguous (LengthW .strict) := .of_any fun _ _ h => h.full.1

theorem C49_domains : Unambiguous (DomainW .strict) := by
  intro v w t hv hw
  have := (hv.acc (g := []) .nil []).symm.trans (hw.acc (g := []) .nil [])
  injection this

theorem C49_problems : Unambiguous (ProblemW .strict) := by
  intro v w t hv hw
  have := (hv.acc (g := []) .nil []).symm.trans (hw.acc (g := []) .nil [])
  injection this

/-! ## The canonical text identifies the value -/

theorem C49_print_names : Faithful Name.wf Name.print := C49_names.faithful fun _ => Name.print_w
theorem C49_print_numbers : Faithful Number.wf Number.print := C49_numbers.faithful fun _ => Number.print_w
theorem C49_print_terms : Faithful Term.wf Term.print := C49_terms.faithful Term.print_w
theorem C49_print_f_exps : Faithful FExp.wf FExp.print := C49_f_exps.faithful FExp.print_w
theorem C49_print_f_exps_da : Faithful FExpDa.wf FExpDa.print := C49_f_exps_da.faithful FExpDa.print_w
theorem C49_print_f_comps : Faithful FComp.wf FComp.print := C49_f_comps.faithful fun _ => FComp.print_w
theorem C49_print_goals : Faithful GD.wf GD.print := C49_goals.faithful GD.print_w
theorem C49_print_preconditions : Faithful PreGD.wfs printPre := C49_preconditions.faithful fun _ => printPre_w
theorem C49_print_constraints : Faithful ConGD.wf ConGD.print := C49_constraints.faithful ConGD.print_w
theorem C49_print_pref_constraints : Faithful PrefConGD.wfs printPrefCon :=
  C49_pref_constraints.faithful fun _ => printPrefCon_w
theorem C49_print_effects : Faithful CEffect.wfs printEffects := C49_effects.faithful fun _ => printEffects_w
theorem C49_print_actions : Faithful ActionDef.wf ActionDef.print := C49_actions.faithful fun _ => ActionDef.print_w
theorem C49_print_durative_actions : Faithful DaDef.wf DaDef.print :=
  C49_durative_actions.faithful fun _ => DaDef.print_w
theorem C49_print_domains : Faithful Domain.wf Domain.print := C49_domains.faithful fun _ => Domain.print_w
theorem C49_print_problems : Faithful Problem.wf Problem.print := C49_problems.faithful fun _ => Problem.print_w

/-- Texts the printers produce for values that differ in a detail. -/
example : (FExp.binaryOp .add (.number (Ex.num 5 0)) (.number (Ex.num 7 0))).wf = true ∧
    (FExp.binaryOp .add (.number (Ex.num 7 0)) (.number (Ex.num 5 0))).wf = true ∧
    (FExp.binaryOp .add (.number (Ex.num 5 0)) (.number (Ex.num 7 0))).print ≠
      (FExp.binaryOp .add (.number (Ex.num 7 0)) (.number (Ex.num 5 0))).print := by decide +kernel
example : Ex.domain.wf = true ∧ Ex.problem.wf = true := by decide +kernel

/-- Beyond the strict grammar this fails: in the loose grammar of C26, which describes all accepted
texts from outside, a text may relate to two values; the exclusions in the strict grammar are needed. -/
example : ∃ t v w, FExpW .loose v t ∧ FExpW .loose w t ∧ v ≠ w := by
  have hn : FExpW .loose (.function (.simple (.new c!"f"))) c!"f" := .function (.bare ⟨isWord_of 'f' [] rfl rfl, rfl⟩)
  have hg : Sep c!" ;c\n" := .mk rfl (.comment (b := 'c') (body := []) (n := '\n') rfl (fun _ h => nomatch h) rfl .nil)
  exact ⟨c!"(+ f ;c\nf)", _, _, .binaryOp (m := .loose) (op := .add) (g0 := []) (g1 := [' ']) (g2 := c!" ;c\n") (g3 := [])
      .nil sep_blank hn hg hn .nil,
    .multiOp (m := .loose) (op := .add) (g0 := []) (g1 := [' ']) (g2 := c!" ;c\n") (g3 := [])
      .nil sep_blank hn hg (.one hn) .nil (.inr (by decide)), nofun⟩

end Pddl
