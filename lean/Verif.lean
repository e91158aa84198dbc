import Verif.Nom
import Verif.F32
import Verif.Name
import Verif.Ast
import Verif.Ops
import Verif.Parsers
import Verif.Meta.Good
import Verif.Meta.Num
import Verif.Meta.NumParse
import Verif.Meta.Tactic
import Verif.Meta.GoodAll
import Verif.Meta.Round
import Verif.Props.Robust
import Verif.Props.Number
import Verif.Props.Ops
import Verif.Intern
import Verif.Types
import Verif.Props.Intern
import Verif.Props.NameEq
import Verif.Props.Disagree
import Verif.Props.Types
import Verif.Spec.Layout
import Verif.Spec.Literal
import Verif.Spec.Grammar
import Verif.Meta.Layout
import Verif.Meta.Word
import Verif.Meta.Eval
import Verif.Meta.Typed
import Verif.Meta.Par
import Verif.Meta.Atoms
import Verif.Meta.NumExp
import Verif.Meta.Goals
import Verif.Meta.Effects
import Verif.Meta.Durative
import Verif.Meta.Sections
import Verif.Meta.Top
import Verif.Spec.Print
import Verif.Meta.Print
import Verif.Props.ReadBack
import Verif.Spec.Balance
import Verif.Meta.Balance
import Verif.Meta.Sound
import Verif.Meta.SoundAtoms
import Verif.Meta.SoundGoals
import Verif.Meta.SoundEffects
import Verif.Meta.SoundTop
import Verif.Meta.Local
import Verif.Meta.LocalAll
import Verif.Meta.Form
import Verif.Spec.Nodes
import Verif.Meta.Nodes
import Verif.Meta.OneForm
import Verif.Props.Accept
import Verif.Props.Shape
import Verif.Props.Layout
import Verif.Props.Quirks
import Verif.Props.Unique
import Verif.Props.Timed
import Verif.Spec.Sections
import Verif.Props.Sections
import Verif.Convert
import Verif.Props.Convert
import Verif.Props.NumberText
import Verif.Spec.Malformed
import Verif.Meta.Fail
import Verif.Meta.FailAll
import Verif.Meta.FailOnly
import Verif.Props.Malformed
import Verif.Fidelity
import Verif.Props.Reformat
import Verif.Trace.Nom
import Verif.Trace.Parsers
import Verif.Meta.Erase
import Verif.Meta.EraseAll
import Verif.Meta.Trace
import Verif.Meta.TraceAll
import Verif.Meta.ErrorAt
import Verif.Spec.Position
import Verif.Props.Errors
import Verif.Meta.Chain
import Verif.Props.Viable
import Verif.Spec.Work
import Verif.Work.Nom
import Verif.Work.Parsers
import Verif.Meta.WorkRun
import Verif.Meta.WorkPos
import Verif.Meta.WorkEats
import Verif.Meta.WorkRules
import Verif.Meta.WorkForms
import Verif.Meta.WorkLeaves
import Verif.Meta.WorkAll
import Verif.Meta.WorkLow
import Verif.Meta.WorkPays
import Verif.Meta.WorkAlike
import Verif.Props.Work
import Verif.Spec.Depth
import Verif.Depth.Nom
import Verif.Depth.Parsers
import Verif.Meta.DepthRun
import Verif.Meta.DepthAlike
import Verif.Meta.DepthRules
import Verif.Meta.DepthAll
import Verif.Meta.DepthLow
import Verif.Props.Depth
import Verif.Release
import Verif.Props.Builds
import Verif.Props.Files
import Verif.Props.Exact
import Verif.Api
import Verif.Spec.Api
import Verif.Props.Api
import Verif.Builders
import Verif.Props.Builders
import Verif.Hashing
import Verif.Props.Hashing
import Verif.Props.Compose
import Verif.Props.Definitions
import Verif.Meta.ArithX
import Verif.Props.Numeric
import Verif.Props.NumericForms
import Verif.Accessors
import Verif.Conversions
import Verif.Props.Conversions
import Verif.Meta.TypedX
import Verif.Props.TypedLists
import Verif.Meta.TermForms
import Verif.Props.GoalsX
import Verif.Meta.OkErr
import Verif.Props.ConditionsX
import Verif.Meta.Texts
import Verif.Props.EffectsX
import Verif.Props.ConstraintsX
import Verif.Props.DurativeX
import Verif.Props.ActionsX
import Verif.Props.FilesX
import Verif.Props.ApiX
import Verif.Props.Edges
import Verif.Props.Trail
import Verif.Props.Panics
import Verif.Props.Resources
import Verif.Props.Fluents
import Verif.Spec.Meaning
import Verif.Props.Meaning
import Verif.Props.Arithmetic
import Verif.Props.RenameMeaning
import Verif.Spec.Trajectory
import Verif.Props.Trajectory
import Verif.Props.Timeless
import Verif.Props.Recase
import Verif.Spec.Rename
import Verif.Meta.Rename
import Verif.Meta.RenameAll
import Verif.Props.Rename
import Verif.Meta.RenameId
import Verif.Meta.Shape
import Verif.Props.Relayout
import Verif.Equality
import Verif.Meta.Equality
import Verif.Props.Equality
import Verif.Props.Heads
import Verif.Props.Cut
import Verif.Props.Undo
import Verif.Props.Made
import Verif.Props.Edit
import Verif.Props.Replace
import Verif.Props.ReplaceMore
import Verif.Props.Separators
import Verif.Props.MadeMore
import Verif.Props.Spans
import Verif.Props.Reentrant
import Verif.Props.ReentrantExact
import Verif.Props.Image
import Verif.Spec.Values
import Verif.Spec.Durative
import Verif.Props.DurativeNumeric
import Verif.Props.DurativeMeaning
import Verif.Spec.Bits
import Verif.Spec.Column
import Verif.Spec.Image
import Verif.Spec.Reformat
import Verif.Reentrant
import Verif.Span
import Verif.Meta.ImageEffects
import Verif.Meta.WorkLowDomain
import Verif.Meta.ReformatAll
import Verif.Meta.Bits
import Verif.Meta.ImageGoals
import Verif.Meta.ImageFiles
import Verif.Meta.ImageCons
import Verif.Meta.Image
import Verif.Meta.Reformat
import Verif.Spec.Plan
import Verif.Props.PlanRename
import Verif.Props.PlanParts
import Verif.Props.EffectMeaning
import Verif.Props.PlanText
import Verif.Props.RenameTime
import Verif.Spec.Temporal
import Verif.Props.DurativeAction
import Verif.Props.RenameAction
import Verif.Spec.Preference
import Verif.Props.PreferenceMeaning
import Verif.Props.RenamePreference
import Verif.Spec.Rules
import Verif.Props.Rules
import Verif.Props.RuleParts
import Verif.Spec.Violations
import Verif.Props.Violations
import Verif.Spec.Metric
import Verif.Props.Best
import Verif.Props.Entered
import Verif.Props.EnteredAll
import Verif.Props.EnteredCut
import Verif.Props.Leaves
import Verif.Props.Calls
import Verif.Props.CallsProblem
import Verif.Props.CallsDomain
import Verif.Props.EnteredRec
import Verif.Props.EnteredItems
import Verif.Props.EnteredTyped
