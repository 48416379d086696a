import Verif.Model.Derive
import Verif.Proofs.Order
import Verif.Spec.Example
import Verif.Spec.History
import Verif.Properties.MapBasic
import Verif.Properties.MapIter
import Verif.Properties.MapKeys
import Verif.Properties.MapRetain
import Verif.Properties.MapEntry
import Verif.Properties.MapHistory
import Verif.Properties.MapOrd
import Verif.Properties.SetBasic
import Verif.Properties.SetIter
import Verif.Properties.SetRetain
import Verif.Properties.SetHistory
import Verif.Properties.SetExact
import Verif.Properties.Custom
import Verif.Properties.DropPanic
import Verif.Properties.ExactHint
import Verif.Properties.IterDrop
import Verif.Properties.ClonePanic
import Verif.Properties.SetIntersection
import Verif.Properties.SetOrd
import Verif.Properties.Bitset
import Verif.Properties.Text
import Verif.Properties.Derive
import Verif.Properties.Contents
import Verif.Properties.Algebra
import Verif.Properties.LoopWord
import Verif.Properties.Traits
import Verif.Properties.Gen
import Verif.Properties.GenUnits
import Verif.Properties.Expand
import Verif.Properties.IterClone
import Verif.Properties.DropExact
import Verif.Properties.Compare
import Verif.Properties.Collect
import Verif.Properties.HashFree
import Verif.Properties.Operators
import Verif.Properties.IterClonePanic
import Verif.Properties.Program
import Verif.Properties.GenEffects
import Verif.Properties.GenHeader
import Verif.Properties.ProbeTable
import Verif.Properties.Names
import Verif.Spec.Memory
import Verif.Spec.MemoryProbe
import Verif.Proofs.Memory
import Verif.Properties.Memory
import Verif.Properties.Exact
import Verif.Spec.Sound
import Verif.Proofs.Sound
import Verif.Properties.Sound
import Verif.Model.Cost
import Verif.Spec.Cost
import Verif.Proofs.Cost
import Verif.Properties.Cost
import Verif.Model.Fold
import Verif.Spec.Fold
import Verif.Proofs.Fold
import Verif.Properties.Fold
import Verif.Model.Auto
import Verif.Spec.Auto
import Verif.Proofs.Auto
import Verif.Properties.Auto
import Verif.Model.Quote
import Verif.Model.Emit
import Verif.Model.EmitUnits
import Verif.Spec.Emit
import Verif.Spec.EmitUnits
import Verif.Proofs.EmitIter
import Verif.Proofs.Emit
import Verif.Proofs.EmitUnits
import Verif.Properties.Emit
import Verif.Spec.TokenNames
import Verif.Proofs.TokenNames
import Verif.Proofs.TokenNamesAny
import Verif.Proofs.TokenNamesUnits
import Verif.Properties.TokenNames
import Verif.Model.LenWord
import Verif.Spec.LenWord
import Verif.Proofs.LenWord
import Verif.Properties.LenWord
import Verif.Model.Macro
import Verif.Spec.Macro
import Verif.Proofs.Macro
import Verif.Properties.Macro
import Verif.Model.IterMethods
import Verif.Spec.IterMethods
import Verif.Proofs.IterMethods
import Verif.Properties.IterMethods
import Verif.Model.Paths
import Verif.Spec.Paths
import Verif.Spec.PathsMacro
import Verif.Proofs.Paths
import Verif.Proofs.PathsAny
import Verif.Proofs.PathsUnits
import Verif.Proofs.PathsMacro
import Verif.Properties.Paths
import Verif.Model.TraitItems
import Verif.Spec.Impls
import Verif.Spec.ImplsMacro
import Verif.Proofs.ImplsRead
import Verif.Proofs.Impls
import Verif.Proofs.ImplsAny
import Verif.Proofs.ImplsUnits
import Verif.Proofs.ImplsCheck
import Verif.Proofs.ImplsAccepted
import Verif.Proofs.ImplsAcceptedUnits
import Verif.Properties.Impls
import Verif.Model.RustSyntax
import Verif.Model.RustText
import Verif.Model.RustProgs
import Verif.Model.RustSem
import Verif.Model.RustMap
import Verif.Model.RustIter
import Verif.Spec.RustSource
import Verif.Proofs.RustIter
import Verif.Proofs.RustTactic
import Verif.Proofs.RustBucket
import Verif.Proofs.RustMapBool
import Verif.Proofs.RustMapUnit
import Verif.Proofs.RustMapOpt
import Verif.Proofs.RustMapHash
import Verif.Proofs.RustSetBool
import Verif.Proofs.RustSetUnit
import Verif.Proofs.RustSetOpt
import Verif.Proofs.RustSetHash
import Verif.Properties.RustSource
import Verif.Model.RustApi
import Verif.Spec.RustApi
import Verif.Proofs.RustApiMap
import Verif.Proofs.RustEntry
import Verif.Proofs.RustSerde
import Verif.Proofs.RustApiSet
import Verif.Properties.RustApi
import Verif.Properties.RustSerde
import Verif.Model.RustCmp
import Verif.Spec.RustCmp
import Verif.Proofs.RustCmp
import Verif.Properties.RustCmp
import Verif.Model.RustKey
import Verif.Spec.RustKey
import Verif.Properties.RustKey
import Verif.Model.RustTraits
import Verif.Properties.RustTraits
import Verif.Model.RustIterTraits
import Verif.Properties.RustIterTraits
import Verif.Model.DeriveSyntax
import Verif.Model.DeriveSource
import Verif.Model.DeriveProgs
import Verif.Model.DeriveSem
import Verif.Spec.DeriveText
import Verif.Proofs.DeriveLoop
import Verif.Proofs.DeriveAny
import Verif.Proofs.DeriveUnits
import Verif.Proofs.DeriveMacro
import Verif.Properties.DeriveText
import Verif.Properties.DeriveMacro
import Verif.Properties.DeriveAttrs
import Verif.Properties.DeriveMain
import Verif.Properties.DeriveWhole
import Verif.Validation.DocTests
import Verif.Axioms
