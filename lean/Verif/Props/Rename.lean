import Verif.Meta.RenameAll
import Verif.Api

/-!
# C87: names are only labels
-/

namespace Pddl

/-- The value with every name `n` in it replaced by `φ n`. -/
def Parsable.mapNames (φ : Name → Name) : (k : Parsable) → k.Item → k.Item
  | actionDefinition => ActionDef.mapNames φ
  | actionSymbol => φ
  | assignOp => id
  | assignOpT => id
  | atomicFormulaSkeleton => Skeleton.mapNames φ
  | atomicFunctionSkeleton => Skeleton.mapNames φ
  | basicFunctionTerm => BasicFunctionTerm.mapNames φ
  | binaryComp => id
  | binaryOp => id
  | cEffect => CEffect.mapNames φ
  | forallCEffect => Prod.map (varsMapNames φ) (List.map (CEffect.mapNames φ))
  | whenCEffect => Prod.map (GD.mapNames φ) (CondEffect.mapNames φ)
  | conGD => ConGD.mapNames φ
  | con2GD => Con2GD.mapNames φ
  | conditionalEffect => CondEffect.mapNames φ
  | constants => varsMapNames φ
  | dOp => id
  | durationValue => DurationValue.mapNames φ
  | durativeActionDefinition => DaDef.mapNames φ
  | durativeActionEffect => DaEffect.mapNames φ
  | durativeActionGoalDefinition => DaGD.mapNames φ
  | durativeActionSymbol => φ
  | derivedPredicate => DerivedPredicate.mapNames φ
  | domain => Domain.mapNames φ
  | domainConstraintsDef => ConGD.mapNames φ
  | durationConstraint => Option.map (DurationConstraint.mapNames φ)
  | effects => List.map (CEffect.mapNames φ)
  | fAssignDa => FAssignDa.mapNames φ
  | fComp => FComp.mapNames φ
  | fExp => FExp.mapNames φ
  | fExpDa => FExpDa.mapNames φ
  | fExpT => FExpT.mapNames φ
  | fHead => FHead.mapNames φ
  | functionSymbol => φ
  | functionTerm => FunctionTerm.mapNames φ
  | functionType => Ty.mapNames φ
  | functions => List.map (Typed.mapNames φ (Skeleton.mapNames φ))
  | goalDefinition => GD.mapNames φ
  | goalDef => List.map (PreGD.mapNames φ)
  | initElements => List.map (InitElement.mapNames φ)
  | initElement => InitElement.mapNames φ
  | interval => id
  | lengthSpec => id
  | metricFExp => MetricFExp.mapNames φ
  | metricSpec => MetricSpec.mapNames φ
  | multiOp => id
  | name => φ
  | number => id
  | objects => varsMapNames φ
  | optimization => id
  | pEffect => PEffect.mapNames φ
  | preconditionGoalDefinitions => List.map (PreGD.mapNames φ)
  | predicate => φ
  | predicateDefinitions => List.map (Skeleton.mapNames φ)
  | prefConGDs => List.map (PrefConGD.mapNames φ)
  | preferenceGD => PrefGD.mapNames φ
  | preferenceName => φ
  | prefTimedGD => PrefTimedGD.mapNames φ
  | primitiveType => φ
  | problem => Problem.mapNames φ
  | problemConstraintsDef => List.map (PrefConGD.mapNames φ)
  | requirements => id
  | requirement => id
  | simpleDurationConstraint => SimpleDuration.mapNames φ
  | structureDef => StructureDef.mapNames φ
  | term => Term.mapNames φ
  | timeSpecifier => id
  | timedEffect => TimedEffect.mapNames φ
  | timedGD => TimedGD.mapNames φ
  | timeless => List.map (Literal.mapNames φ φ)
  | type_ => Ty.mapNames φ
  | types => varsMapNames φ
  | variable_ => φ

theorem Parsable.equi {ρ : List Char → List Char} (ho : ρ c!"object" = c!"object") (hn : ρ c!"number" = c!"number") :
    (k : Parsable) → Equi ρ k.parse (k.mapNames (Name.rename ρ))
  | actionDefinition => parseActionDef_equi ho
  | actionSymbol => parseActionSymbol_equi
  | assignOp => parseAssignOp_equi
  | assignOpT => parseAssignOpT_equi
  | atomicFormulaSkeleton => parseAtomicFormulaSkeleton_equi ho
  | atomicFunctionSkeleton => parseAtomicFunctionSkeleton_equi ho
  | basicFunctionTerm => parseBasicFunctionTerm_equi
  | binaryComp => parseBinaryComp_equi
  | binaryOp => parseBinaryOp_equi
  | cEffect => parseCEffect_equi ho
  | forallCEffect => parseForallCEffect_equi ho
  | whenCEffect => parseWhenCEffect_equi ho
  | conGD => parseConGd_equi ho
  | con2GD => parseCon2Gd_equi ho
  | conditionalEffect => parseCondEffect_equi
  | constants => parseConstantsDef_equi ho
  | dOp => parseDOp_equi
  | durationValue => parseDValue_equi
  | durativeActionDefinition => parseDaDef_equi ho
  | durativeActionEffect => parseDaEffect_equi ho
  | durativeActionGoalDefinition => parseDaGd_equi ho
  | durativeActionSymbol => parseDaSymbol_equi
  | derivedPredicate => parseDerivedPredicate_equi ho
  | domain => parseDomain_equi ho hn
  | domainConstraintsDef => parseDomainConstraintsDef_equi ho
  | durationConstraint => parseDurationConstraint_equi
  | effects => parseEffect_equi ho
  | fAssignDa => parseFAssignDa_equi
  | fComp => parseFComp_equi
  | fExp => parseFExp_equi
  | fExpDa => parseFExpDa_equi
  | fExpT => parseFExpT_equi
  | fHead => parseFHead_equi
  | functionSymbol => parseFunctionSymbol_equi
  | functionTerm => parseFunctionTerm_equi
  | functionType => parseFunctionType_equi ho
  | functions => parseFunctionsDef_equi ho hn
  | goalDefinition => parseGd_equi ho
  | goalDef => parseProblemGoalDef_equi ho
  | initElements => parseProblemInitDef_equi
  | initElement => parseInitEl_equi
  | interval => parseInterval_equi
  | lengthSpec => parseProblemLengthSpec_equi
  | metricFExp => parseMetricFExp_equi
  | metricSpec => parseProblemMetricSpec_equi
  | multiOp => parseMultiOp_equi
  | name => parseName_equi
  | number => parseNumber_equi
  | objects => parseProblemObjectsDeclaration_equi ho
  | optimization => parseOptimization_equi
  | pEffect => parsePEffect_equi
  | preconditionGoalDefinitions => parsePreGd_equi ho
  | predicate => parsePredicate_equi
  | predicateDefinitions => parsePredicatesDef_equi ho
  | prefConGDs => parsePrefConGd_equi ho
  | preferenceGD => parsePrefGd_equi ho
  | preferenceName => parsePrefName_equi
  | prefTimedGD => parsePrefTimedGd_equi ho
  | primitiveType => parsePrimitiveType_equi ho
  | problem => parseProblem_equi ho
  | problemConstraintsDef => parseProblemConstraintsDef_equi ho
  | requirements => parseRequireDef_equi
  | requirement => parseRequireKey_equi
  | simpleDurationConstraint => parseSimpleDuration_equi
  | structureDef => parseStructureDef_equi ho
  | term => parseTerm_equi
  | timeSpecifier => parseTimeSpecifier_equi
  | timedEffect => parseTimedEffect_equi
  | timedGD => parseTimedGd_equi ho
  | timeless => parseTimelessDef_equi
  | type_ => parseType_equi ho
  | types => parseTypesDef_equi ho
  | variable_ => parseVariable_equi

/-! ## Renaming as a function -/

/-- One blank in front of a text. -/
theorem Renames.blank {ρ : List Char → List Char} {c : Char} {s s' : List Char} (hc : isBlank c = true)
    (h : Renames ρ s s') : Renames ρ (c :: s) (c :: s') := by
  have one : (∀ d r, s = d :: r → isBlank d = false) → Renames ρ (c :: s) (c :: s') := fun hs =>
    .blanks (g := [c]) (g' := [c]) (by simp) (by simpa using hc) (by simp) (by simpa using hc) hs h
  cases h with
  | nil => exact one (by simp)
  | char h1 h2 h3 h4 h5 h => exact one fun d r e => by cases e; exact h2
  | @blanks g g' s s' h1 h2 h3 h4 h5 h =>
    exact .blanks (g := c :: g) (g' := c :: g') (by simp) (by simpa using ⟨hc, h2⟩) (by simp) (by simpa using ⟨hc, h4⟩) h5 h
  | word hw _ _ _ _ =>
    obtain ⟨d, ds, rfl, hd, _⟩ := hw
    exact one fun d' r e => by cases e; exact (isAlpha_solid hd).1
  | sigil hc _ _ _ _ _ => exact one fun d r e => by cases e; rcases hc with rfl | rfl <;> decide
  | comment _ _ _ _ _ _ => exact one fun d r e => by cases e; decide

/-- A renamed text begins with the character with which the text begins, unless that is a letter. -/
theorem renamed_head {ρ : List Char → List Char} {n : Nat} {c : Char} {s : List Char} (hc : isLetter c = false) :
    ∃ r, (piecesF (n + 1) (c :: s)).flatMap (Piece.renamed ρ) = c :: r := by
  simp only [piecesF, hc, if_false, Bool.false_eq_true]
  split
  · rename_i e; subst e; exact ⟨_, rfl⟩
  · split
    · exact ⟨_, rfl⟩
    · exact ⟨_, rfl⟩

theorem Renames.prefix_end {ρ : List Char → List Char} {s s' : List Char} (h : Renames ρ s s') :
    c!"end" <+: s ↔ c!"end" <+: s' := by
  have key : ∀ s : List Char, c!"end" <+: s ↔ ∃ r, tag c!"end" s = .ok c!"end" r := fun s => by
    simp only [tag]
    constructor
    · rintro ⟨r, rfl⟩
      exact ⟨r, rfl⟩
    · rintro ⟨r, e⟩
      cases e' : stripPrefix c!"end" s with
      | none => rw [e'] at e; cases e
      | some r => exact ⟨r, (stripPrefix_some.mp e').symm⟩
  rw [key, key]
  rcases (Equi.tag (ρ := ρ) (k := c!"end") (by decide)).cases h with
    ⟨a, t, t', e1, e2, _⟩ | ⟨e1, e2⟩ | ⟨e1, e2⟩ | ⟨e1, e2⟩ | ⟨e1, e2⟩ <;> rw [e1, e2] <;> simp

theorem renames_pieces {ρ : List Char → List Char} : ∀ {n s}, s.length ≤ n →
    (∀ w, .word w ∈ piecesF n s → CanRename ρ w) → (∀ c w, .sigil c w ∈ piecesF n s → TailKept ρ (sigiled c) w) →
    Renames ρ s ((piecesF n s).flatMap (Piece.renamed ρ)) ∧
      (c!" end" <+: s ↔ c!" end" <+: (piecesF n s).flatMap (Piece.renamed ρ))
  | n, [], _, _, _ => by cases n <;> exact ⟨.nil, Iff.rfl⟩
  | 0, _ :: _, h, _, _ => by simp at h
  | n + 1, c :: s, h, hw, hs => by
    have stop : ∀ (f : Char → Bool) d r, s.dropWhile f = d :: r → f d = false := fun f d r e => by
      have := List.head?_dropWhile_not f s
      rw [e] at this
      simpa using this
    have len : ∀ f : Char → Bool, (s.dropWhile f).length ≤ n := fun f => by
      have := (List.dropWhile_sublist (l := s) f).length_le
      simp at h; omega
    have all : ∀ (f : Char → Bool), ∀ d ∈ s.takeWhile f, f d = true := fun f d hd => by
      have := List.all_takeWhile (p := f) (l := s)
      rw [List.all_eq_true] at this
      exact this d hd
    have no : ∀ {d d' : Char} {t t' : List Char}, d ≠ ' ' → d' ≠ ' ' → (c!" end" <+: d :: t ↔ c!" end" <+: d' :: t') :=
      fun h h' => ⟨fun e => absurd (List.cons_prefix_cons.mp e).1.symm h, fun e => absurd (List.cons_prefix_cons.mp e).1.symm h'⟩
    simp only [piecesF] at hw hs ⊢
    by_cases h1 : isLetter c = true
    · simp only [h1, if_true] at hw hs ⊢
      obtain ⟨ih, ih'⟩ := renames_pieces (len isWordChar) (fun w hm => hw w (.tail _ hm)) fun c w hm => hs c w (.tail _ hm)
      have hW : IsWord (c :: s.takeWhile isWordChar) := ⟨c, _, rfl, h1, all isWordChar⟩
      have hC := hw _ (.head _)
      have := Renames.word hW hC (stop isWordChar) (fun _ => ih') ih
      rw [List.cons_append, List.takeWhile_append_dropWhile] at this
      refine ⟨this, ?_⟩
      obtain ⟨d, ds, e, hd, _⟩ := hC.word hW
      simp only [List.flatMap_cons, Piece.renamed, e]
      refine no ?_ ?_ <;> rintro rfl
      · exact absurd h1 (by decide)
      · exact absurd hd (by decide)
    · have h1 : isLetter c = false := by simpa using h1
      by_cases h2 : c = ';'
      · subst h2
        simp only [h1, if_true, if_false, Bool.false_eq_true] at hw hs ⊢
        obtain ⟨ih, _⟩ := renames_pieces (len fun d => !isNewline d) (fun w hm => hw w (.tail _ hm))
          fun c w hm => hs c w (.tail _ hm)
        have hn : ∀ d r, s.dropWhile (fun d => !isNewline d) = d :: r → isNewline d = true :=
          fun d r e => by simpa using stop _ d r e
        have := Renames.comment (b := s.takeWhile fun d => !isNewline d) (fun d hd => by simpa using all _ d hd)
          (fun d hd => by simpa using all _ d hd) Iff.rfl hn (fun d r e => ?_) ih
        · rw [List.takeWhile_append_dropWhile] at this
          exact ⟨this, no (by decide) (by decide)⟩
        · generalize hx : s.dropWhile (fun d => !isNewline d) = x at hn e
          cases x with
          | nil => cases n <;> cases e
          | cons c x =>
            have hc := hn c x rfl
            have hl : isLetter c = false := by
              cases e : isLetter c with
              | false => rfl
              | true =>
                simp only [isNewline, Bool.or_eq_true, beq_iff_eq] at hc
                rcases hc with rfl | rfl <;> exact absurd e (by decide)
            obtain _ | n := n
            · have := len fun d => !isNewline d
              rw [hx] at this; simp at this
            · obtain ⟨r', e'⟩ := renamed_head (ρ := ρ) (n := n) (s := x) hl
              rw [e'] at e
              cases e
              exact hc
      · by_cases h3 : c = ':' ∨ c = '#'
        · simp only [h1, h2, h3, if_true, if_false, Bool.false_eq_true] at hw hs ⊢
          obtain ⟨ih, ih'⟩ := renames_pieces (len isWordChar) (fun w hm => hw w (.tail _ hm)) fun c w hm => hs c w (.tail _ hm)
          have := Renames.sigil h3 (all isWordChar) (hs _ _ (.head _)) (stop isWordChar) (fun _ => ih') ih
          rw [List.takeWhile_append_dropWhile] at this
          have hne : c ≠ ' ' := by rcases h3 with rfl | rfl <;> decide
          exact ⟨this, no hne hne⟩
        · simp only [h1, h2, h3, if_false, Bool.false_eq_true] at hw hs ⊢
          obtain ⟨ih, _⟩ := renames_pieces (n := n) (s := s) (by simpa using h) (fun w hm => hw w (.tail _ hm))
            fun c w hm => hs c w (.tail _ hm)
          constructor
          · by_cases h4 : isBlank c = true
            · exact ih.blank h4
            · exact .char h1 (by simpa using h4) h2 (fun e => h3 (.inl e)) (fun e => h3 (.inr e)) ih
          · by_cases h5 : c = ' '
            · subst h5
              constructor <;> intro e
              · exact List.cons_prefix_cons.mpr ⟨rfl, ih.prefix_end.mp (List.cons_prefix_cons.mp e).2⟩
              · exact List.cons_prefix_cons.mpr ⟨rfl, ih.prefix_end.mpr (List.cons_prefix_cons.mp e).2⟩
            · exact no h5 h5

/-- The function gives a renamed text, wherever renaming is possible. -/
theorem renames_renameText {ρ : List Char → List Char} {s : List Char}
    (hw : ∀ w, .word w ∈ pieces s → CanRename ρ w) (hs : ∀ c w, .sigil c w ∈ pieces s → TailKept ρ (sigiled c) w) :
    Renames ρ s (renameText ρ s) := (renames_pieces (Nat.le_refl _) hw hs).1

/-! ## C87 -/

/-- Every parser of the crate, started on a renamed text, with any layout, does what it did on the text: it returns the renamed
value and leaves the renamed rest, or fails in the same way. -/
theorem C87_every_type {ρ : List Char → List Char} (ho : ρ c!"object" = c!"object") (hn : ρ c!"number" = c!"number")
    {s s' : List Char} (h : Renames ρ s s') (k : Parsable) :
    (∀ v r, k.parse s = .ok v r → ∃ r', k.parse s' = .ok (k.mapNames (Name.rename ρ) v) r' ∧ Renames ρ r r') ∧
    (k.parse s = .err → k.parse s' = .err) ∧ (k.parse s = .fail → k.parse s' = .fail) ∧
    (k.parse s = .panic → k.parse s' = .panic) := by
  rcases (k.equi ho hn).cases h with ⟨a, t, t', e1, e2, h1, _⟩ | ⟨e1, e2⟩ | ⟨e1, e2⟩ | ⟨e1, e2⟩ | ⟨e1, e2⟩ <;>
    rw [e1, e2] <;> refine ⟨?_, ?_, ?_, ?_⟩ <;> first | (intro h; cases h; done) | (intro _; rfl) | (intro _ _ h; cases h; done) | skip
  rintro v r he
  cases he
  exact ⟨t', rfl, h1⟩

/-- What `from_str` gives for the renamed text is the renamed value of the text. -/
theorem C87_from_str {ρ : List Char → List Char} (ho : ρ c!"object" = c!"object") (hn : ρ c!"number" = c!"number")
    {s s' : List Char} (h : Renames ρ s s') (k : Parsable) :
    k.fromStr s' = (k.fromStr s).bind fun v _ => .ok (k.mapNames (Name.rename ρ) v) [] := by
  unfold Parsable.fromStr
  rcases (k.equi ho hn).cases h with ⟨a, t, t', e1, e2, h1, _⟩ | ⟨e1, e2⟩ | ⟨e1, e2⟩ | ⟨e1, e2⟩ | ⟨e1, e2⟩ <;>
    rw [e1, e2] <;> rfl

/-- Domains. -/
theorem C87_domain {ρ : List Char → List Char} (ho : ρ c!"object" = c!"object") (hn : ρ c!"number" = c!"number")
    {s s' : List Char} (h : Renames ρ s s') :
    fromStr parseDomain s' = (fromStr parseDomain s).map (Domain.mapNames (Name.rename ρ)) := by
  unfold fromStr
  rcases (parseDomain_equi ho hn).cases h with ⟨a, t, t', e1, e2, h1, _⟩ | ⟨e1, e2⟩ | ⟨e1, e2⟩ | ⟨e1, e2⟩ | ⟨e1, e2⟩ <;>
    rw [e1, e2] <;> rfl

/-- Problems. -/
theorem C87_problem {ρ : List Char → List Char} (ho : ρ c!"object" = c!"object")
    {s s' : List Char} (h : Renames ρ s s') :
    fromStr parseProblem s' = (fromStr parseProblem s).map (Problem.mapNames (Name.rename ρ)) := by
  unfold fromStr
  rcases (parseProblem_equi ho).cases h with ⟨a, t, t', e1, e2, h1, _⟩ | ⟨e1, e2⟩ | ⟨e1, e2⟩ | ⟨e1, e2⟩ | ⟨e1, e2⟩ <;>
    rw [e1, e2] <;> rfl

/-- One word `a` can be renamed to `b` in every text where `a` is not the end of a longer word, as long as neither
begins with a word of PDDL. -/
theorem C87_one_word {a b : List Char} (ha : Unreserved a) (hb : IsWord b) (hb' : Unreserved b) {s : List Char}
    (hs : ∀ t ∈ pieces s, t.Whole a) (k : Parsable) :
    k.fromStr (renameText (renameOne a b) s) =
      (k.fromStr s).bind fun v _ => .ok (k.mapNames (Name.rename (renameOne a b)) v) [] := by
  have other : ∀ {w}, w ∈ reserved → renameOne a b w = w := fun {w} h => by
    unfold renameOne
    split
    · rename_i e
      exact absurd (List.prefix_refl _) (e ▸ ha w h)
    · rfl
  refine C87_from_str (other (by decide)) (other (by decide)) (renames_renameText ?_ ?_) k
  · intro w hm
    by_cases e : w = a
    · subst e
      exact .inl ⟨by simpa [renameOne] using hb, ha, by simpa [renameOne] using hb'⟩
    · refine .inr ⟨by simp [renameOne, e], ?_⟩
      rintro k hk u rfl x hx
      unfold renameOne
      split
      · rename_i e'
        subst e'
        exact absurd (hs _ hm (hx.trans (List.suffix_append _ _))) e
      · rfl
  · rintro c w hm k hk u rfl x hx
    unfold renameOne
    split
    · rename_i e'
      subst e'
      exact absurd (hx.trans (List.suffix_append _ _)) (hs _ hm)
    · rfl

/-- Not so for words that begin with a word of PDDL: a choice between types can have an alternative `target`, but no
alternative `objective`. -/
theorem C87_reserved_prefix :
    parseType c!"(either target box)" = .ok (.eitherOf [.str c!"target", .str c!"box"]) [] ∧
    parseType c!"(either objective box)" = .fail := ⟨rfl, rfl⟩

/-- Nor where the word is the end of such a word: here `ball` is a name of its own, behind the keyword. -/
theorem C87_reserved_suffix :
    parseType c!"(eitherball box)" = .ok (.eitherOf [.str c!"ball", .str c!"box"]) [] ∧
    parseType (renameText (renameOne c!"ball" c!"bin") c!"(eitherball box)") =
      .ok (.eitherOf [.str c!"ball", .str c!"box"]) [] := ⟨rfl, rfl⟩

/-! ## Examples -/

/-- A small domain, with a comment. -/
def renameSample : List Char :=
  c!"(define (domain d) (:types ball) ; one ball
 (:predicates (at-rest ?b - ball)) (:action kick :parameters (?b - ball) :effect (not (at-rest ?b))))"

example : renameText (renameOne c!"ball" c!"bin") renameSample = c!"(define (domain d) (:types bin) ; one ball
 (:predicates (at-rest ?b - bin)) (:action kick :parameters (?b - bin) :effect (not (at-rest ?b))))" := by
  decide +kernel

example : Renames (renameOne c!"ball" c!"bin") c!"(p ball)" c!"(p bin)" := by
  have : c!"(p bin)" = renameText (renameOne c!"ball" c!"bin") c!"(p ball)" := rfl
  rw [this]
  refine renames_renameText (fun w h => ?_) fun c w h => ?_
  · simp only [show pieces c!"(p ball)" =
      [.char '(', .word c!"p", .char ' ', .word c!"ball", .char ')'] from rfl] at h
    have : w = c!"p" ∨ w = c!"ball" := by simpa using h
    rcases this with rfl | rfl
    · exact .inl ⟨⟨'p', [], rfl, by decide, by decide⟩, by decide, by decide⟩
    · exact .inl ⟨⟨'b', c!"in", rfl, by decide, by decide⟩, by decide, by decide⟩
  · simp only [show pieces c!"(p ball)" =
      [.char '(', .word c!"p", .char ' ', .word c!"ball", .char ')'] from rfl] at h
    simp at h

set_option maxRecDepth 8000 in
example : ∃ v, Parsable.domain.fromStr renameSample = .ok v [] ∧
    Parsable.domain.fromStr (renameText (renameOne c!"ball" c!"bin") renameSample) =
      .ok (Domain.mapNames (Name.rename (renameOne c!"ball" c!"bin")) v) [] := by
  refine ⟨_, rfl, ?_⟩
  rw [C87_one_word (by decide) ⟨'b', c!"in", rfl, by decide, by decide⟩ (by decide) (by decide +kernel) .domain]
  rfl

end Pddl
