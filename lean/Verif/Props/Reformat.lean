import Verif.Meta.ReformatAll
import Verif.Meta.Top
import Verif.Props.Unique
import Verif.Props.ReadBack

/-!
# C55: layout carries no meaning

The value of a well-written text depends on its tokens only (`Verif/Spec/Reformat.lean`), and a
formatter that replaces all layout by single spaces does not change it.
-/

namespace Pddl

/-- A text is a token: a parenthesis or a run of other characters. -/
def IsToken (t : List Char) : Prop := t = c!"(" ∨ t = c!")" ∨ Plain t

theorem flushWord_token {w : List Char} (h : ∀ c ∈ w, isPlain c = true) :
    ∀ t ∈ flushWord w, IsToken t := by
  intro t ht
  unfold flushWord at ht
  split at ht
  · cases ht
  · next hne => exact .inr (.inr (List.mem_singleton.1 ht ▸ ⟨hne, h⟩))

theorem tokensFrom_token (x : List Char) : ∀ b w, (∀ c ∈ w, isPlain c = true) →
    ∀ t ∈ tokensFrom b w x, IsToken t := by
  induction x with
  | nil => intro b w h; rw [tokensFrom]; exact flushWord_token h
  | cons c r ih =>
    intro b w h t ht
    cases b with
    | true => rw [tokensFrom] at ht; exact ih _ [] (by simp) t ht
    | false =>
      rw [tokensFrom] at ht
      split at ht
      · rcases List.mem_append.1 ht with ht | ht
        · exact flushWord_token h t ht
        · exact ih _ [] (by simp) t ht
      · next h1 =>
        split at ht
        · rcases List.mem_append.1 ht with ht | ht
          · exact flushWord_token h t ht
          · exact ih _ [] (by simp) t ht
        · next h2 =>
          split at ht
          · next h3 =>
            rcases List.mem_append.1 ht with ht | ht
            · exact flushWord_token h t ht
            · rcases List.mem_cons.1 ht with rfl | ht
              · rcases h3 with rfl | rfl
                · exact .inl rfl
                · exact .inr (.inl rfl)
              · exact ih _ [] (by simp) t ht
          · next h3 =>
            refine ih _ (w ++ [c]) (fun d hd => ?_) t ht
            rcases List.mem_append.1 hd with hd | hd
            · exact h d hd
            · rw [List.mem_singleton.1 hd, isPlain_iff]
              exact ⟨by simpa using h1, h2, fun h => h3 (.inl h), fun h => h3 (.inr h)⟩

theorem tokensFrom_plain {t : List Char} (h : ∀ c ∈ t, isPlain c = true) (w x : List Char) :
    tokensFrom false w (t ++ x) = tokensFrom false (w ++ t) x := by
  induction t generalizing w with
  | nil => simp
  | cons c r ih =>
    obtain ⟨h1, h2, h3, h4⟩ := isPlain_iff.1 (h c (List.mem_cons_self ..))
    rw [List.cons_append, tokensFrom, if_neg (by simp [h1]), if_neg h2, if_neg (by simp [h3, h4]),
      ih fun d hd => h d (List.mem_cons_of_mem c hd)]
    simp

theorem tokens_write {ts : List (List Char)} (h : ∀ t ∈ ts, IsToken t) :
    (∀ b, tokensFrom false [] (writeTokens b ts) = ts) ∧
    ∀ w, w ≠ [] → tokensFrom false w (writeTokens false ts) = w :: ts := by
  induction ts with
  | nil =>
    refine ⟨fun b => by simp [writeTokens, tokensFrom, flushWord], fun w hw => ?_⟩
    simp [writeTokens, tokensFrom, flushWord, hw]
  | cons t ts ih =>
    obtain ⟨i1, i2⟩ := ih fun t ht => h t (List.mem_cons_of_mem _ ht)
    have hsp : ∀ w y, tokensFrom false w (' ' :: y) = flushWord w ++ tokensFrom false [] y := by
      intro w y
      rw [tokensFrom, if_pos (by decide)]
    classical
    have main : ∀ w, tokensFrom false w (t ++ writeTokens (decide (t = c!"(")) ts) =
        if w = [] then t :: ts else if Plain t then (w ++ t) :: ts else w :: t :: ts := by
      intro w
      have hnp : ¬ Plain c!"(" := fun h => absurd (h.2 '(' (by simp)) (by decide)
      have hnp' : ¬ Plain c!")" := fun h => absurd (h.2 ')' (by simp)) (by decide)
      rcases h t (List.mem_cons_self ..) with rfl | rfl | hp
      · rw [List.cons_append, List.nil_append, tokensFrom, if_neg (by decide), if_neg (by decide),
          if_pos (.inl rfl), i1, flushWord, if_neg hnp]
        split <;> rfl
      · rw [List.cons_append, List.nil_append, tokensFrom, if_neg (by decide), if_neg (by decide),
          if_pos (.inr rfl), i1, flushWord, if_neg hnp']
        split <;> rfl
      · have hd : decide (t = c!"(") = false := by
          rw [decide_eq_false_iff_not]
          rintro rfl
          exact hnp hp
        rw [hd, tokensFrom_plain hp.2, i2 _ (by simp [hp.1]), if_pos hp]
        split
        · next h => rw [h, List.nil_append]
        · rfl
    constructor
    · intro b
      rw [writeTokens]
      split
      · rw [main, if_pos rfl]
      · rw [List.cons_append, hsp, main, if_pos rfl]; rfl
    · intro w hw
      rw [writeTokens]
      split
      · next h =>
        rw [main, if_neg hw, if_neg]
        have : t = c!")" := by simpa using h
        subst this
        exact fun h => absurd (h.2 ')' (by simp)) (by decide)
      · rw [List.cons_append, hsp, main, if_pos rfl, flushWord, if_neg hw]; rfl

/-- Reformatting keeps the tokens of every text. -/
theorem C55_tokens (t : List Char) : tokens (reformat t) = tokens t :=
  (tokens_write (tokensFrom_token t false [] (by simp))).1 true

/-- Reformatting twice is reformatting once. -/
theorem C55_idempotent (t : List Char) : reformat (reformat t) = reformat t := by
  rw [reformat, C55_tokens, ← reformat]

/-- `reformat` is a normal form for the tokens. -/
theorem C55_normal_form (s t : List Char) : reformat s = reformat t ↔ tokens s = tokens t :=
  ⟨fun h => by rw [← C55_tokens s, h, C55_tokens], fun h => by rw [reformat, h, ← reformat]⟩

/-- Texts written according to `R` are read by `p`, reformatted or not, and what is read depends on
their tokens only. -/
def LayoutFree (p : P α) (R : α → List Char → Prop) : Prop :=
  (∀ v t, R v t → p t = .ok v [] ∧ R v (reformat t) ∧ p (reformat t) = .ok v []) ∧
  ∀ v w s t, R v s → R w t → tokens s = tokens t → v = w ∧ p s = p t

theorem LayoutFree.of {k : Bool} {p : P α} {F : List Char → Prop} {R : α → List Char → Prop} (hF : F [])
    (ha : ∀ v t, R v t → Acc p F v t) (ht : ∀ v t, R v t → Tidy k R v t) : LayoutFree p R := by
  have h0 : ∀ v t, R v t → p t = .ok v [] := fun v t h => by simpa using ha v t h [] hF
  refine ⟨fun v t h => ⟨h0 v t h, (ht v t h).reformat, h0 v _ (ht v t h).reformat⟩, ?_⟩
  intro v w s t hs ht' he
  have h1 := h0 _ _ (ht _ _ hs).reformat
  have h2 := h0 _ _ (ht _ _ ht').reformat
  rw [(C55_normal_form s t).2 he, h2] at h1
  injection h1 with h1
  subst h1
  exact ⟨rfl, by rw [h0 _ _ hs, h0 _ _ ht']⟩

private theorem LayoutFree.any {k : Bool} {p : P α} {R : α → List Char → Prop}
    (ha : ∀ v t, R v t → Acc p Any v t) (ht : ∀ v t, R v t → Tidy k R v t) : LayoutFree p R :=
  .of (F := Any) trivial ha ht

private theorem LayoutFree.stop {k : Bool} {p : P α} {R : α → List Char → Prop}
    (ha : ∀ v t, R v t → Acc p Stop v t) (ht : ∀ v t, R v t → Tidy k R v t) : LayoutFree p R :=
  .of Stop.nil ha ht

theorem C55_terms : LayoutFree parseTerm (TermW .strict) := .stop (fun _ _ h => h.acc) fun _ _ h => h.tidy
theorem C55_atoms : LayoutFree (atomicFormula parseTerm) (AtomW .strict (TermW .strict)) :=
  .any (fun _ _ h => h.acc_term) fun _ _ h => atom_tidy h
theorem C55_literals : LayoutFree (literal parseName) (LiteralW .strict) :=
  .stop (fun _ _ h => h.elem.1) fun _ _ h => h.tidy
theorem C55_skeletons : LayoutFree parseAtomicFormulaSkeleton (SkeletonW .strict) :=
  .stop (fun _ _ h => h.elem.1) fun _ _ h => h.tidy
theorem C55_f_exps : LayoutFree parseFExp (FExpW .strict) := .stop (fun _ _ h => h.acc) fun _ _ h => h.tidy
theorem C55_f_exps_da : LayoutFree parseFExpDa (FExpDaW .strict) :=
  .stop (fun _ _ h => h.acc) fun _ _ h => h.tidy
theorem C55_f_exps_t : LayoutFree parseFExpT (FExpTW .strict) := .any (fun _ _ h => h.acc) fun _ _ h => h.tidy
theorem C55_f_comps : LayoutFree parseFComp (FCompW .strict) := .any (fun _ _ h => h.acc) fun _ _ h => h.tidy
theorem C55_goals : LayoutFree parseGd (GDW .strict) := .any (fun _ _ h => h.acc) fun _ _ h => h.tidy
theorem C55_preferences : LayoutFree parsePrefGd (PrefGDW .strict) :=
  .any (fun _ _ h => h.acc) fun _ _ h => h.tidy
theorem C55_preconditions : LayoutFree parsePreGd (PreGDW .strict) :=
  .any (fun _ _ h => h.acc) fun _ _ h => h.tidy
theorem C55_constraints : LayoutFree parseConGd (ConGDW .strict) :=
  .any (fun _ _ h => h.acc) fun _ _ h => h.tidy
theorem C55_pref_constraints : LayoutFree parsePrefConGd (PrefConGDW .strict) :=
  .any (fun _ _ h => h.acc) fun _ _ h => h.tidy
theorem C55_p_effects : LayoutFree parsePEffect (PEffectW .strict) :=
  .any (fun _ _ h => h.acc) fun _ _ h => h.tidy
theorem C55_cond_effects : LayoutFree parseCondEffect (CondEffectW .strict) :=
  .any (fun _ _ h => h.acc) fun _ _ h => h.tidy
theorem C55_c_effects : LayoutFree parseCEffect (CEffectW .strict) :=
  .any (fun _ _ h => h.acc) fun _ _ h => h.tidy
theorem C55_effects : LayoutFree parseEffect (EffectW (CEffectW .strict)) :=
  .any (fun _ _ h => h.full.1) fun _ _ h => effects_tidy h
theorem C55_actions : LayoutFree parseActionDef (ActionW .strict) :=
  .any (fun _ _ h => h.acc) fun _ _ h => h.tidy
theorem C55_derived : LayoutFree parseDerivedPredicate (DerivedW .strict) :=
  .any (fun _ _ h => h.acc) fun _ _ h => h.tidy
theorem C55_timed_goals : LayoutFree parseTimedGd (TimedGDW .strict) :=
  .any (fun _ _ h => h.acc) fun _ _ h => h.tidy
theorem C55_durative_goals : LayoutFree parseDaGd (DaGDW .strict) :=
  .any (fun _ _ h => h.full.1) fun _ _ h => h.tidy
theorem C55_timed_effects : LayoutFree parseTimedEffect (TimedEffectW .strict) :=
  .any (fun _ _ h => h.acc) fun _ _ h => h.tidy
theorem C55_durative_effects : LayoutFree parseDaEffect (DaEffectW .strict) :=
  .any (fun _ _ h => h.full.1) fun _ _ h => h.tidy
theorem C55_durations : LayoutFree parseSimpleDuration (SimpleDurationW .strict) :=
  .any (fun _ _ h => h.acc) fun _ _ h => h.tidy
theorem C55_durative_actions : LayoutFree parseDaDef (DaDefW .strict) :=
  .any (fun _ _ h => h.acc) fun _ _ h => h.tidy
theorem C55_structures : LayoutFree parseStructureDef (StructureW .strict) :=
  .any (fun _ _ h => h.acc) fun _ _ h => h.tidy
theorem C55_requirements : LayoutFree parseRequireDef (RequirementsW .strict) :=
  .any (fun _ _ h => h.full.1) fun _ _ h => RequirementsW.tidy h
theorem C55_functions : LayoutFree parseFunctionsDef (FunctionsW .strict) :=
  .any (fun _ _ h => h.full.1) fun _ _ h => h.tidy
theorem C55_init : LayoutFree parseProblemInitDef (InitW .strict) :=
  .any (fun _ _ h => h.full.1) fun _ _ h => h.tidy
theorem C55_metric_exps : LayoutFree parseMetricFExp (MetricW .strict) :=
  .stop (fun _ _ h => h.elem.1) fun _ _ h => h.tidy
theorem C55_metrics : LayoutFree parseProblemMetricSpec (MetricSpecW .strict) :=
  .any (fun _ _ h => h.full.1) fun _ _ h => h.tidy
theorem C55_lengths : LayoutFree parseProblemLengthSpec (LengthW .strict) :=
  .any (fun _ _ h => h.full.1) fun _ _ h => h.tidy

/-- Documents in the sense of `FromStr`: layout, a definition, and anything. -/
theorem reformat_document {k : Bool} {R : α → List Char → Prop} {v : α} {g t : List Char} (hg : Gap g)
    (ht : Tidy k R v t) (hf : Form t) (r : List Char) :
    ∃ u r', R v u ∧ reformat (g ++ (t ++ r)) = u ++ r' := by
  obtain ⟨u, h1, _, q, hq, h2, _⟩ := ht
  refine ⟨u, canon false q r, h1, ?_⟩
  have h3 := hg.run .start (t ++ r)
  have : (if g = [] then RSt.start else RSt.start.blank) = .start := by split <;> rfl
  rw [reformat_eq, h3, this, List.nil_append, h2]

/-- A domain file keeps its meaning when it is reformatted. -/
theorem C55_domain_files {d : Domain} {t : List Char} (h : DomainW .strict d t) {g : List Char}
    (hg : Gap g) (r : List Char) :
    fromStr parseDomain (reformat (g ++ (t ++ r))) = fromStr parseDomain (g ++ (t ++ r)) ∧
      fromStr parseDomain (g ++ (t ++ r)) = some d := by
  obtain ⟨u, r', h1, h2⟩ := reformat_document hg h.tidy h.form r
  have := C24_from_str h1 (g := []) .nil r'
  rw [h2]
  exact ⟨this.trans (C24_from_str h hg r).symm, C24_from_str h hg r⟩

/-- A problem file keeps its meaning when it is reformatted. -/
theorem C55_problem_files {p : Problem} {t : List Char} (h : ProblemW .strict p t) {g : List Char}
    (hg : Gap g) (r : List Char) :
    fromStr parseProblem (reformat (g ++ (t ++ r))) = fromStr parseProblem (g ++ (t ++ r)) ∧
      fromStr parseProblem (g ++ (t ++ r)) = some p := by
  obtain ⟨u, r', h1, h2⟩ := reformat_document hg h.tidy h.form r
  have := C25_from_str h1 (g := []) .nil r'
  rw [h2]
  exact ⟨this.trans (C25_from_str h hg r).symm, C25_from_str h hg r⟩

/-- Two domain files with the same tokens define the same domain. -/
theorem C55_domain_tokens {d e : Domain} {t s g g' : List Char} (h : DomainW .strict d t)
    (h' : DomainW .strict e s) (hg : Gap g) (hg' : Gap g') (r r' : List Char)
    (he : tokens (g ++ (t ++ r)) = tokens (g' ++ (s ++ r'))) : d = e := by
  have h1 := C55_domain_files h hg r
  have h2 := C55_domain_files h' hg' r'
  rw [(C55_normal_form _ _).2 he] at h1
  simpa [h1.2, h2.2] using h1.1.symm.trans h2.1

/-- Two problem files with the same tokens define the same problem. -/
theorem C55_problem_tokens {d e : Problem} {t s g g' : List Char} (h : ProblemW .strict d t)
    (h' : ProblemW .strict e s) (hg : Gap g) (hg' : Gap g') (r r' : List Char)
    (he : tokens (g ++ (t ++ r)) = tokens (g' ++ (s ++ r'))) : d = e := by
  have h1 := C55_problem_files h hg r
  have h2 := C55_problem_files h' hg' r'
  rw [(C55_normal_form _ _).2 he] at h1
  simpa [h1.2, h2.2] using h1.1.symm.trans h2.1

/-- A text with comments and uneven layout, and what becomes of it. -/
example : reformat c!" (and;c (\n(p\t?x )\n\n(not(q a)) ; end\n)" = c!"(and (p ?x) (not (q a)))" := by
  decide +kernel

example : tokens c!"(not(p ?x ))" = [c!"(", c!"not", c!"(", c!"p", c!"?x", c!")", c!")"] := by
  decide +kernel

/-- A domain file with a comment in front and text behind it satisfies the hypotheses. -/
example : fromStr parseDomain (reformat (c!";h\n" ++ (Ex.domain.print ++ c!" x"))) = some Ex.domain :=
  have h := C55_domain_files (Domain.print_w (d := Ex.domain) (by decide +kernel))
    (Gap.comment (b := 'h') (body := []) (n := '\n') rfl (by simp) rfl .nil) c!" x"
  h.1.trans h.2

/-- Two spellings of a goal with the same tokens. -/
example : ∀ v w, GDW .strict v c!"(not(p a))" → GDW .strict w c!"(not ;c\n (p  a) )" → v = w :=
  fun v w h h' => (C55_goals.2 v w _ _ h h' (by decide +kernel)).1

/-- Words are tokens even when an operator touches them: `(-x)` is not reformatted to `(- x)`. -/
example : reformat c!"( -x)" = c!"(-x)" := by decide +kernel

end Pddl
