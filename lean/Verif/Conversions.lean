import Verif.Types
import Verif.Parsers

/-!
# Constructors and conversions of the value types

The functions with which a user builds goals, effects, conditions, constraints and types by hand, and
the `From`, `TryInto`, `FromIterator` and `Default` implementations between them. Newtypes are erased
as everywhere in the model: `Effects`, `PreconditionGoalDefinitions` and `PrefConGDs` are lists,
`PrimitiveType` and `Variable` are names, `FunctionType` is `Ty`. `impl IntoIterator` arguments are
lists. A `TryInto` whose error is `()` gives an `Option`.
-/

namespace Pddl

/-! ## Types -/

/-- `From<&str> for Type`, `/repo/src/types/type.rs:67-71`, and `From<&str> for FunctionType`,
`/repo/src/types/function_type.rs:37-41`, through `PrimitiveType::from` (`type.rs:100-108`). -/
def Ty.ofStr (s : List Char) : Ty := .exactly (Name.new s)
/-- `From<Vec<&str>> for Type`, `/repo/src/types/type.rs:73-77`, and for `FunctionType`,
`/repo/src/types/function_type.rs:43-49`. -/
def Ty.ofStrs (ss : List (List Char)) : Ty := .eitherOf (ss.map Name.new)
/-- `From<PrimitiveType> for Type`, `/repo/src/types/type.rs:79-83`. -/
def Ty.ofPrimitive (n : Name) : Ty := .exactly n
/-- `FromIterator for Type`, `/repo/src/types/type.rs:91-98`, and `From<Vec<PrimitiveType>>`,
`/repo/src/types/type.rs:85-89`. -/
def Ty.ofIter (ns : List Name) : Ty := .eitherOf ns
/-- `Default for Type`, `/repo/src/types/type.rs:61-65`. -/
def Ty.default : Ty := .object
/-- `Default for FunctionType`, `/repo/src/types/function_type.rs:31-35`, with `FunctionType::NUMBER`,
`function_type.rs:20`. -/
def Ty.defaultFunction : Ty := .number
/-- `PrimitiveType::default()`, derived, `/repo/src/types/type.rs:21-22`: the default of `Name`
(`/repo/src/types/name.rs:25-26`, `208-212`). -/
def Ty.defaultPrimitive : Name := Name.newStatic []

/-- `From<O> for Typed<O>` and `Typed::new_object`, `/repo/src/types/typed.rs:67-71`, `18-20`. -/
def Typed.ofValue (x : α) : Typed α := ⟨x, .object⟩
/-- `From<O> for FunctionTyped<O>` and `FunctionTyped::new_number`,
`/repo/src/types/function_typed.rs:39-43`, `22-24`. -/
def Typed.ofFunction (x : α) : Typed α := ⟨x, .number⟩
/-- `ToTyped::to_typed` of `Name` and `Variable`, `/repo/src/types/name.rs:187-189`,
`/repo/src/types/variable.rs:41-43`, and `FunctionTyped::from_type`,
`/repo/src/types/function_typed.rs:26-28`. -/
def Typed.toTyped (x : α) (t : Ty) : Typed α := ⟨x, t⟩
/-- `ToTyped::to_typed_either` of `Name` and `Variable`, `/repo/src/types/name.rs:190-195`,
`/repo/src/types/variable.rs:44-49`. -/
def Typed.toTypedEither (x : α) (ts : List Name) : Typed α := ⟨x, Ty.ofIter ts⟩

/-! ## Goals and preconditions -/

/-- `GoalDefinition::new_and`, `/repo/src/types/gd.rs:51-54`. -/
def GD.newAnd (gs : List GD) : GD := .and gs
/-- `GoalDefinition::new_or`, `/repo/src/types/gd.rs:57-60`. -/
def GD.newOr (gs : List GD) : GD := .or gs
/-- `GoalDefinition::new_not`, `/repo/src/types/gd.rs:63-65`. -/
def GD.newNot (g : GD) : GD := .not g
/-- `GoalDefinition::new_imply`, `/repo/src/types/gd.rs:73-75`. -/
def GD.newImply (a b : GD) : GD := .imply a b
/-- `GoalDefinition::new_imply_tuple`, `/repo/src/types/gd.rs:68-70`. -/
def GD.newImplyTuple (t : GD × GD) : GD := GD.newImply t.1 t.2
/-- `GoalDefinition::new_exists`, `/repo/src/types/gd.rs:83-85`. -/
def GD.newExists (vs : TypedList Name) (g : GD) : GD := .exist vs g
/-- `GoalDefinition::new_exists_tuple`, `/repo/src/types/gd.rs:78-80`. -/
def GD.newExistsTuple (t : TypedList Name × GD) : GD := GD.newExists t.1 t.2
/-- `GoalDefinition::new_forall`, `/repo/src/types/gd.rs:93-95`. -/
def GD.newForall (vs : TypedList Name) (g : GD) : GD := .forall_ vs g
/-- `GoalDefinition::new_forall_tuple`, `/repo/src/types/gd.rs:88-90`. -/
def GD.newForallTuple (t : TypedList Name × GD) : GD := GD.newForall t.1 t.2

/-- `From<(Option<PreferenceName>, GoalDefinition)> for Preference`,
`/repo/src/types/preference.rs:35-39`, as a `PreferenceGD` (`/repo/src/types/pref_gd.rs:22-24`). -/
def PrefGD.ofTuple (t : Option Name × GD) : PrefGD := .preference t.1 t.2
/-- `From<(PreferenceName, GoalDefinition)> for Preference`, `/repo/src/types/preference.rs:41-45`. -/
def PrefGD.ofNamed (t : Name × GD) : PrefGD := .preference (some t.1) t.2
/-- `From<GoalDefinition> for Preference`, `/repo/src/types/preference.rs:47-51`: a preference without
name. -/
def PrefGD.anonymous (g : GD) : PrefGD := .preference none g
/-- `From<GoalDefinition> for PreferenceGD`, `/repo/src/types/pref_gd.rs:27-31`: no preference at all. -/
def PrefGD.ofGoal (g : GD) : PrefGD := .goal g

/-- `From<PreferenceGD> for PreconditionGoalDefinition`, `/repo/src/types/pre_gd.rs:160-164`, and
`new_preference`, `pre_gd.rs:150-152`. -/
def PreGD.ofPref (p : PrefGD) : PreGD := .preference p
/-- `PreconditionGoalDefinition::new_and`, `/repo/src/types/pre_gd.rs:142-147`: the elements, one list
per element, joined. -/
def PreGD.newAnd (gs : List PreGD) : List PreGD := gs
/-- `PreconditionGoalDefinition::new_forall`, `/repo/src/types/pre_gd.rs:155-157`. -/
def PreGD.newForall (vs : TypedList Name) (gs : List PreGD) : PreGD := .forall_ vs gs
/-- `From<PreconditionGoalDefinition> for PreconditionGoalDefinitions`,
`/repo/src/types/pre_gd.rs:88-92`. -/
def PreGD.list (g : PreGD) : List PreGD := [g]
/-- `From<Option<PreconditionGoalDefinition>> for PreconditionGoalDefinitions`,
`/repo/src/types/pre_gd.rs:94-101`. -/
def PreGD.ofOption : Option PreGD → List PreGD
  | some g => [g]
  | none => []
/-- `From<Option<PreconditionGoalDefinitions>> for PreconditionGoalDefinitions`,
`/repo/src/types/pre_gd.rs:103-110`. -/
def PreGD.ofOptionList : Option (List PreGD) → List PreGD
  | some gs => gs
  | none => []
/-- `PreconditionGoalDefinitions::new_forall`, `/repo/src/types/pre_gd.rs:26-28`. -/
def PreGD.listForall (vs : TypedList Name) (gs : List PreGD) : List PreGD := [PreGD.newForall vs gs]
/-- `PreconditionGoalDefinitions::new_preference`, `/repo/src/types/pre_gd.rs:21-23`. -/
def PreGD.listPreference (p : PrefGD) : List PreGD := [PreGD.ofPref p]

/-! ## Effects -/

/-- `From<PEffect> for CEffect`, `/repo/src/types/c_effect.rs:89-93`, `new_p_effect`, `67-69`. -/
def CEffect.ofPEffect (p : PEffect) : CEffect := .effect p
/-- `From<(TypedVariables, Effects)> for CEffect`, `/repo/src/types/c_effect.rs:107-111`, `new_forall`,
`76-78`, and `From<ForallCEffect>`, `95-99`, the struct being the pair. -/
def CEffect.ofForall (t : TypedList Name × List CEffect) : CEffect := .forall_ t.1 t.2
/-- `From<(GoalDefinition, ConditionalEffect)> for CEffect`, `/repo/src/types/c_effect.rs:113-117`,
`new_when`, `84-86`, and `From<WhenCEffect>`, `101-105`, the struct being the pair. -/
def CEffect.ofWhen (t : GD × CondEffect) : CEffect := .when t.1 t.2
/-- `TryInto<PEffect> for CEffect`, `/repo/src/types/c_effect.rs:119-129`. -/
def CEffect.tryPEffect : CEffect → Option PEffect
  | .effect p => some p
  | .forall_ .. => none
  | .when .. => none
/-- `TryInto<WhenCEffect> for CEffect`, `/repo/src/types/c_effect.rs:131-141`. -/
def CEffect.tryWhen : CEffect → Option (GD × CondEffect)
  | .effect _ => none
  | .forall_ .. => none
  | .when c e => some (c, e)
/-- `TryInto<ForallCEffect> for CEffect`, `/repo/src/types/c_effect.rs:143-153`. -/
def CEffect.tryForall : CEffect → Option (TypedList Name × List CEffect)
  | .effect _ => none
  | .forall_ vs es => some (vs, es)
  | .when .. => none

/-- `From<CEffect> for Effects` and `Effects::new`, `/repo/src/types/effects.rs:79-83`, `18-20`. -/
def CEffect.list (e : CEffect) : List CEffect := [e]
/-- `Effects::new_and`, `FromIterator`, `From<Vec>`, `/repo/src/types/effects.rs:23-25`, `91-95`,
`85-89`. -/
def CEffect.newAnd (es : List CEffect) : List CEffect := es
/-- `TryInto<CEffect> for Effects`, `/repo/src/types/effects.rs:97-103`, through `try_get_single`. -/
def CEffect.trySingle (es : List CEffect) : Option CEffect := tryGetSingle es

/-- `From<PEffect> for ConditionalEffect` and `new`, `/repo/src/types/conditional_effect.rs:39-43`,
`19-21`. -/
def CondEffect.ofPEffect (p : PEffect) : CondEffect := .single p
/-- `FromIterator`, `From<Vec>` and `new_and`, `/repo/src/types/conditional_effect.rs:51-55`, `45-49`,
`22-24`. -/
def CondEffect.ofIter (ps : List PEffect) : CondEffect := .all ps

/-! ## Trajectory constraints -/

/-- `ConGD::new_and`, `/repo/src/types/con_gd.rs:40-43`. -/
def ConGD.newAnd (gs : List ConGD) : ConGD := .and gs
/-- `ConGD::new_forall`, `/repo/src/types/con_gd.rs:45-47`. -/
def ConGD.newForall (vs : TypedList Name) (g : ConGD) : ConGD := .forall_ vs g
/-- `ConGD::new_at_end`, `/repo/src/types/con_gd.rs:49-51`. -/
def ConGD.newAtEnd (g : GD) : ConGD := .atEnd g
/-- `ConGD::new_always`, `/repo/src/types/con_gd.rs:53-55`. -/
def ConGD.newAlways (g : Con2GD) : ConGD := .always g
/-- `ConGD::new_sometime`, `/repo/src/types/con_gd.rs:57-59`. -/
def ConGD.newSometime (g : Con2GD) : ConGD := .sometime g
/-- `ConGD::new_within`, `/repo/src/types/con_gd.rs:61-63`. -/
def ConGD.newWithin (n : Number) (g : Con2GD) : ConGD := .within n g
/-- `ConGD::new_at_most_once`, `/repo/src/types/con_gd.rs:65-67`. -/
def ConGD.newAtMostOnce (g : Con2GD) : ConGD := .atMostOnce g
/-- `ConGD::new_sometime_after`, `/repo/src/types/con_gd.rs:69-71`. -/
def ConGD.newSometimeAfter (first then_ : Con2GD) : ConGD := .sometimeAfter first then_
/-- `ConGD::new_sometime_before`, `/repo/src/types/con_gd.rs:73-75`. -/
def ConGD.newSometimeBefore (later earlier : Con2GD) : ConGD := .sometimeBefore later earlier
/-- `ConGD::new_always_within`, `/repo/src/types/con_gd.rs:77-79`. -/
def ConGD.newAlwaysWithin (n : Number) (first second : Con2GD) : ConGD := .alwaysWithin n first second
/-- `ConGD::new_hold_during`, `/repo/src/types/con_gd.rs:81-83`. -/
def ConGD.newHoldDuring (begin_ end_ : Number) (g : Con2GD) : ConGD := .holdDuring begin_ end_ g
/-- `ConGD::new_hold_after`, `/repo/src/types/con_gd.rs:85-87`. -/
def ConGD.newHoldAfter (n : Number) (g : Con2GD) : ConGD := .holdAfter n g
/-- `Default for ConGD`, `/repo/src/types/con_gd.rs:23-27`. -/
def ConGD.default : ConGD := .and []
/-- `From<GoalDefinition> for Con2GD` and `new_goal`, `/repo/src/types/con_gd.rs:130-134`, `112-114`. -/
def Con2GD.ofGoal (g : GD) : Con2GD := .goal g
/-- `From<ConGD> for Con2GD` and `new_nested`, `/repo/src/types/con_gd.rs:124-128`, `108-110`. -/
def Con2GD.ofCon (g : ConGD) : Con2GD := .nested g

/-- `From<ConGD> for PrefConGDs` and `PrefConGDs::new_goal`, `/repo/src/types/pref_con_gd.rs:138-142`,
`24-26`. -/
def PrefConGD.ofCon (g : ConGD) : List PrefConGD := [.goal g]
/-- `PrefConGDs::new_preference`, `/repo/src/types/pref_con_gd.rs:32-34`. -/
def PrefConGD.newPreference (n : Option Name) (g : ConGD) : List PrefConGD := [.preference n g]
/-- `PrefConGDs::new_forall`, `/repo/src/types/pref_con_gd.rs:40-42`. -/
def PrefConGD.newForall (vs : TypedList Name) (gs : List PrefConGD) : List PrefConGD := [.forall_ vs gs]
/-- `From<PrefConGD> for PrefConGDs`, `/repo/src/types/pref_con_gd.rs:102-106`. -/
def PrefConGD.list (g : PrefConGD) : List PrefConGD := [g]
/-- `From<Option<PrefConGDs>> for PrefConGDs`, `/repo/src/types/pref_con_gd.rs:129-136`. -/
def PrefConGD.ofOptionList : Option (List PrefConGD) → List PrefConGD
  | some gs => gs
  | none => []

/-! ## Durative actions -/

/-- `From<(TimeSpecifier, GoalDefinition)> for TimedGD` and `new_at`, `/repo/src/types/timed_gd.rs:60-64`,
`51-53`. -/
def TimedGD.ofAt (t : TimeSpecifier × GD) : TimedGD := .at t.1 t.2
/-- `From<(Interval, GoalDefinition)> for TimedGD` and `new_over`, `/repo/src/types/timed_gd.rs:66-70`,
`55-57`. -/
def TimedGD.ofOver (t : Interval × GD) : TimedGD := .over t.1 t.2
/-- `From<TimedGD> for PrefTimedGD` and `new_required`, `/repo/src/types/pref_timed_gd.rs:27-31`,
`18-20`. -/
def PrefTimedGD.ofTimed (g : TimedGD) : PrefTimedGD := .required g
/-- `From<(Option<PreferenceName>, TimedGD)> for PrefTimedGD` and `new_preference`,
`/repo/src/types/pref_timed_gd.rs:33-37`, `22-24`. -/
def PrefTimedGD.ofTuple (t : Option Name × TimedGD) : PrefTimedGD := .preference t.1 t.2
/-- `From<PrefTimedGD> for DurativeActionGoalDefinition` and `new_timed`, `/repo/src/types/da_gd.rs:32-36`,
`21-23`. -/
def DaGD.newTimed (g : PrefTimedGD) : DaGD := .timed g
/-- `DurativeActionGoalDefinition::new_and`, `/repo/src/types/da_gd.rs:24-26`. -/
def DaGD.newAnd (gs : List DaGD) : DaGD := .and gs
/-- `DurativeActionGoalDefinition::new_forall`, `/repo/src/types/da_gd.rs:27-29`. -/
def DaGD.newForall (vs : TypedList Name) (g : DaGD) : DaGD := .forall_ vs g
/-- `From<TimedEffect> for DurativeActionEffect` and `new_timed`, `/repo/src/types/da_effect.rs:38-42`,
`24-26`. -/
def DaEffect.ofTimed (e : TimedEffect) : DaEffect := .timed e
/-- `FromIterator for DurativeActionEffect` and `new_and`, `/repo/src/types/da_effect.rs:44-48`,
`27-29`. -/
def DaEffect.ofIter (es : List DaEffect) : DaEffect := .all es
/-- `From<(TypedVariables, DurativeActionEffect)>` and `DurativeActionEffect::new_forall`,
`/repo/src/types/da_effect.rs:50-54`, `30-32`. -/
def DaEffect.newForall (vs : TypedList Name) (e : DaEffect) : DaEffect := .forall_ vs e
/-- `From<(DurativeActionGoalDefinition, TimedEffect)>` and `DurativeActionEffect::new_when`,
`/repo/src/types/da_effect.rs:56-60`, `33-35`. -/
def DaEffect.newWhen (g : DaGD) (e : TimedEffect) : DaEffect := .when g e
/-- `From<SimpleDurationConstraint> for DurationConstraint` and `new`,
`/repo/src/types/duration_constraint.rs:54-58`, `29-31`. -/
def DurationConstraint.ofSimple (c : SimpleDuration) : DurationConstraint := .single c
/-- `FromIterator for DurationConstraint`, `/repo/src/types/duration_constraint.rs:60-64`, through
`new_all`. -/
def DurationConstraint.ofIter (cs : List SimpleDuration) : Option DurationConstraint :=
  DurationConstraint.newAll cs
/-- The same in a build without debug assertions. -/
def DurationConstraint.ofIterRelease (cs : List SimpleDuration) : DurationConstraint := .all cs

end Pddl
