import Verif.Basic.Loop
import Verif.Basic.Str
import Verif.Basic.StrSet
import Verif.Basic.TyEq
import Verif.Conform.Base
import Verif.Conform.Names
import Verif.Conform.T00
import Verif.Conform.T01
import Verif.Conform.T02
import Verif.Conform.T05
import Verif.Conform.T07
import Verif.Conform.T07m
import Verif.Conform.T08
import Verif.Conform.T09
import Verif.Conform.T10
import Verif.Conform.T10v
import Verif.Conform.T11
import Verif.Conform.T12
import Verif.Conform.T12i
import Verif.Conform.T15
import Verif.Conform.T15f
import Verif.Conform.T15i
import Verif.Conform.T17
import Verif.Conform.T20
import Verif.Conform.T30
import Verif.Conform.T31
import Verif.Conform.T32
import Verif.Conform.T33
import Verif.Conform.T50a
import Verif.Conform.T50n
import Verif.Conform.T60
import Verif.Conform.T70
import Verif.Conform.T70o
import Verif.Conform.T71
import Verif.Conform.T80
import Verif.Conform.T81
import Verif.Lemmas.AllTwo
import Verif.Lemmas.Bind
import Verif.Lemmas.Bool
import Verif.Lemmas.BoolAppend
import Verif.Lemmas.Call
import Verif.Lemmas.Class
import Verif.Lemmas.Comment
import Verif.Lemmas.CommentRun
import Verif.Lemmas.CommentText
import Verif.Lemmas.Comments
import Verif.Lemmas.Config
import Verif.Lemmas.ConfigQuery
import Verif.Lemmas.ConfigRead
import Verif.Lemmas.ConfigSame
import Verif.Lemmas.Contradiction
import Verif.Lemmas.Dotted
import Verif.Lemmas.FileSystem
import Verif.Lemmas.Function
import Verif.Lemmas.GenMore
import Verif.Lemmas.GenProps
import Verif.Lemmas.Generate
import Verif.Lemmas.ImportExample
import Verif.Lemmas.ImportFail
import Verif.Lemmas.ImportModule
import Verif.Lemmas.ImportRun
import Verif.Lemmas.ImportText
import Verif.Lemmas.Includes
import Verif.Lemmas.Insertions
import Verif.Lemmas.LexClass
import Verif.Lemmas.LexFunction
import Verif.Lemmas.LexNames
import Verif.Lemmas.LexRun
import Verif.Lemmas.LexSimplify
import Verif.Lemmas.LexTactic
import Verif.Lemmas.Lexical
import Verif.Lemmas.Lifetime
import Verif.Lemmas.Mangle
import Verif.Lemmas.Memo
import Verif.Lemmas.ModuleTable
import Verif.Lemmas.Namespaces
import Verif.Lemmas.OutputForm
import Verif.Lemmas.Overload
import Verif.Lemmas.Queries
import Verif.Lemmas.Registry
import Verif.Lemmas.Replace
import Verif.Lemmas.Room
import Verif.Lemmas.Run
import Verif.Lemmas.RunExample
import Verif.Lemmas.RunSim
import Verif.Lemmas.SearchOrder
import Verif.Lemmas.Simplify
import Verif.Lemmas.Sort
import Verif.Lemmas.SortCycle
import Verif.Lemmas.Spellable
import Verif.Lemmas.Standard
import Verif.Lemmas.Steps
import Verif.Lemmas.StepsFail
import Verif.Lemmas.StepsPlan
import Verif.Lemmas.StepsRun
import Verif.Lemmas.StepsWorld
import Verif.Lemmas.StlBinders
import Verif.Lemmas.Strings
import Verif.Lemmas.StripName
import Verif.Lemmas.Surface
import Verif.Lemmas.Trampoline
import Verif.Lemmas.Unbroken
import Verif.Lemmas.WishFile
import Verif.Lemmas.WishRun
import Verif.Lemmas.Wishes
import Verif.Model.Ast
import Verif.Model.Builtin
import Verif.Model.Class
import Verif.Model.Comment
import Verif.Model.Config
import Verif.Model.Context
import Verif.Model.EnumNames
import Verif.Model.Files
import Verif.Model.Function
import Verif.Model.Generate
import Verif.Model.Includes
import Verif.Model.Memo
import Verif.Model.Names
import Verif.Model.Queries
import Verif.Model.Run
import Verif.Model.Simplify
import Verif.Model.Steps
import Verif.Model.StlBinders
import Verif.Model.Util
import Verif.Model.VectorMembers
import Verif.Props.AddOn
import Verif.Props.Address
import Verif.Props.Call
import Verif.Props.CallRun
import Verif.Props.Choice
import Verif.Props.Class
import Verif.Props.ClassHead
import Verif.Props.Comment
import Verif.Props.Comments
import Verif.Props.Config
import Verif.Props.ConstructRun
import Verif.Props.Constructor
import Verif.Props.Context
import Verif.Props.Contradiction
import Verif.Props.Converts
import Verif.Props.ConvertsOnce
import Verif.Props.ConvertsReason
import Verif.Props.CustomTrampoline
import Verif.Props.Dotted
import Verif.Props.EnumNames
import Verif.Props.Extended
import Verif.Props.Fallback
import Verif.Props.Fields
import Verif.Props.FinalOverrider
import Verif.Props.Function
import Verif.Props.Generate
import Verif.Props.Headers
import Verif.Props.Holder
import Verif.Props.HolderShipped
import Verif.Props.Import
import Verif.Props.ImportClash
import Verif.Props.Includes
import Verif.Props.LambdaReturn
import Verif.Props.Lexical
import Verif.Props.Lifetime
import Verif.Props.Literal
import Verif.Props.Lock
import Verif.Props.Lookup
import Verif.Props.MemberAddress
import Verif.Props.Memo
import Verif.Props.ModuleName
import Verif.Props.Normalised
import Verif.Props.Operators
import Verif.Props.Options
import Verif.Props.Origin
import Verif.Props.OriginMembers
import Verif.Props.OriginNested
import Verif.Props.OutputForm
import Verif.Props.Overload
import Verif.Props.OverloadCtor
import Verif.Props.OverrideDecl
import Verif.Props.Policy
import Verif.Props.PyNames
import Verif.Props.Queries
import Verif.Props.Renamed
import Verif.Props.RenamedWhole
import Verif.Props.Reserved
import Verif.Props.Run
import Verif.Props.RunClass
import Verif.Props.RunOrder
import Verif.Props.Simplify
import Verif.Props.SimplifyContainers
import Verif.Props.SimplifyElements
import Verif.Props.SimplifyNested
import Verif.Props.Steps
import Verif.Props.StlBinders
import Verif.Props.Strings
import Verif.Props.Surface
import Verif.Props.Trampoline
import Verif.Props.Types
import Verif.Props.Unnamed
import Verif.Props.VectorMembers
import Verif.Props.VirtualRun
import Verif.Props.Wants
import Verif.Props.Wishes
import Verif.Spec.Address
import Verif.Spec.Builtin
import Verif.Spec.Call
import Verif.Spec.CallRun
import Verif.Spec.Choice
import Verif.Spec.Class
import Verif.Spec.Comment
import Verif.Spec.Comments
import Verif.Spec.Config
import Verif.Spec.Construct
import Verif.Spec.Context
import Verif.Spec.Contradiction
import Verif.Spec.Converts
import Verif.Spec.CustomTrampoline
import Verif.Spec.Dotted
import Verif.Spec.EnumNames
import Verif.Spec.Extended
import Verif.Spec.Fields
import Verif.Spec.FinalOverrider
import Verif.Spec.Function
import Verif.Spec.Generate
import Verif.Spec.Headers
import Verif.Spec.Holder
import Verif.Spec.Import
import Verif.Spec.Includes
import Verif.Spec.Lexical
import Verif.Spec.Lifetime
import Verif.Spec.Literal
import Verif.Spec.Lock
import Verif.Spec.Lookup
import Verif.Spec.Memo
import Verif.Spec.Operators
import Verif.Spec.Options
import Verif.Spec.Origin
import Verif.Spec.OutputForm
import Verif.Spec.Overload
import Verif.Spec.PyNames
import Verif.Spec.Renamed
import Verif.Spec.Run
import Verif.Spec.RunOrder
import Verif.Spec.Simplify
import Verif.Spec.SimplifyElements
import Verif.Spec.SimplifyNested
import Verif.Spec.Steps
import Verif.Spec.StlBinders
import Verif.Spec.Strings
import Verif.Spec.Surface
import Verif.Spec.TrailingType
import Verif.Spec.Types
import Verif.Spec.VectorMembers
import Verif.Spec.Virtual
import Verif.Spec.Wants
import Verif.Spec.Wishes
