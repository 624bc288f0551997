import Verif.Lemmas.Accepts
import Verif.Lemmas.Additions
import Verif.Lemmas.Adds
import Verif.Lemmas.Alike
import Verif.Lemmas.AlikeModel
import Verif.Lemmas.AlikeRuns
import Verif.Lemmas.BackTwice
import Verif.Lemmas.Buffer
import Verif.Lemmas.Core
import Verif.Lemmas.CoreOf
import Verif.Lemmas.CrashAttrs
import Verif.Lemmas.CrashChild
import Verif.Lemmas.CrashStart
import Verif.Lemmas.CrashStep
import Verif.Lemmas.Cut
import Verif.Lemmas.Decode
import Verif.Lemmas.DecodeErrs
import Verif.Lemmas.DocAny
import Verif.Lemmas.DocAttr
import Verif.Lemmas.DocCheck
import Verif.Lemmas.DocExt
import Verif.Lemmas.DocFirst
import Verif.Lemmas.DocList
import Verif.Lemmas.DocMesh
import Verif.Lemmas.DocModel
import Verif.Lemmas.DocObject
import Verif.Lemmas.DocStart
import Verif.Lemmas.EncodeIO
import Verif.Lemmas.Forget
import Verif.Lemmas.Good
import Verif.Lemmas.Grouped
import Verif.Lemmas.Grow
import Verif.Lemmas.NotEof
import Verif.Lemmas.Num
import Verif.Lemmas.NumErr
import Verif.Lemmas.NumOrder
import Verif.Lemmas.NumRat
import Verif.Lemmas.NumText
import Verif.Lemmas.Par
import Verif.Lemmas.Pieces
import Verif.Lemmas.Plain
import Verif.Lemmas.Prefix
import Verif.Lemmas.PrefixValidate
import Verif.Lemmas.Presentation
import Verif.Lemmas.PresentationValue
import Verif.Lemmas.Printer
import Verif.Lemmas.Private
import Verif.Lemmas.Renumber
import Verif.Lemmas.Reorder
import Verif.Lemmas.RtChild
import Verif.Lemmas.RtExt
import Verif.Lemmas.RtMesh
import Verif.Lemmas.RtMeta
import Verif.Lemmas.RtModel
import Verif.Lemmas.RtNear
import Verif.Lemmas.RtPkg
import Verif.Lemmas.RtRoot
import Verif.Lemmas.RtSlices
import Verif.Lemmas.RtUnknown
import Verif.Lemmas.RtWritable
import Verif.Lemmas.RulesCore
import Verif.Lemmas.RulesExt
import Verif.Lemmas.RulesModel
import Verif.Lemmas.RulesSlices
import Verif.Lemmas.Runs
import Verif.Lemmas.Savable
import Verif.Lemmas.Schedules
import Verif.Lemmas.Schema
import Verif.Lemmas.Search
import Verif.Lemmas.Shortest
import Verif.Lemmas.StableNum
import Verif.Lemmas.Stl
import Verif.Lemmas.StrOrder
import Verif.Lemmas.Thin
import Verif.Lemmas.Uniq
import Verif.Lemmas.Utf8
import Verif.Lemmas.Validate
import Verif.Lemmas.ValidateMono
import Verif.Lemmas.WellFormed
import Verif.Lemmas.Within
import Verif.Lemmas.Writer
import Verif.Lemmas.Xml
import Verif.Lemmas.XmlText
import Verif.Model.AttrPool
import Verif.Model.Attrs
import Verif.Model.Base
import Verif.Model.Box
import Verif.Model.Buffer
import Verif.Model.Bufio
import Verif.Model.Calls
import Verif.Model.Children
import Verif.Model.Coherency
import Verif.Model.CoherencyPar
import Verif.Model.Core
import Verif.Model.Cost
import Verif.Model.Decode
import Verif.Model.Encode
import Verif.Model.EncodeIO
import Verif.Model.EnumNums
import Verif.Model.Enums
import Verif.Model.ErrHeap
import Verif.Model.ErrText
import Verif.Model.Errors
import Verif.Model.Files
import Verif.Model.Handles
import Verif.Model.Matrix
import Verif.Model.Num
import Verif.Model.Package
import Verif.Model.Par
import Verif.Model.Printer
import Verif.Model.Production
import Verif.Model.Quant
import Verif.Model.Registry
import Verif.Model.Share
import Verif.Model.Stl
import Verif.Model.Text
import Verif.Model.Types
import Verif.Model.Utf8
import Verif.Model.Validate
import Verif.Model.ValidateSpec
import Verif.Model.Writer
import Verif.Model.Xml
import Verif.Model.XmlStack
import Verif.Props.C01
import Verif.Props.C02
import Verif.Props.C03
import Verif.Props.C04
import Verif.Props.C05
import Verif.Props.C07
import Verif.Props.C09
import Verif.Props.C10
import Verif.Props.C100
import Verif.Props.C100Ascii
import Verif.Props.C100Package
import Verif.Props.C101
import Verif.Props.C102
import Verif.Props.C103
import Verif.Props.C103Read
import Verif.Props.C104
import Verif.Props.C104Pkg
import Verif.Props.C105
import Verif.Props.C105Lax
import Verif.Props.C106
import Verif.Props.C106Valid
import Verif.Props.C11
import Verif.Props.C11Orders
import Verif.Props.C12
import Verif.Props.C13
import Verif.Props.C13Exact
import Verif.Props.C14
import Verif.Props.C15
import Verif.Props.C16
import Verif.Props.C17
import Verif.Props.C18
import Verif.Props.C20
import Verif.Props.C20Shortest
import Verif.Props.C21
import Verif.Props.C22
import Verif.Props.C23
import Verif.Props.C23Exact
import Verif.Props.C23Nested
import Verif.Props.C24
import Verif.Props.C25
import Verif.Props.C26
import Verif.Props.C26Exact
import Verif.Props.C27
import Verif.Props.C28
import Verif.Props.C28Exact
import Verif.Props.C29
import Verif.Props.C30
import Verif.Props.C31
import Verif.Props.C31Text
import Verif.Props.C32
import Verif.Props.C33
import Verif.Props.C34
import Verif.Props.C35
import Verif.Props.C36
import Verif.Props.C37
import Verif.Props.C38
import Verif.Props.C39
import Verif.Props.C40
import Verif.Props.C41
import Verif.Props.C41Decode
import Verif.Props.C42
import Verif.Props.C43
import Verif.Props.C44
import Verif.Props.C45
import Verif.Props.C45Value
import Verif.Props.C46
import Verif.Props.C47
import Verif.Props.C48
import Verif.Props.C49
import Verif.Props.C50
import Verif.Props.C51
import Verif.Props.C52
import Verif.Props.C53
import Verif.Props.C53Exact
import Verif.Props.C54
import Verif.Props.C55
import Verif.Props.C55Exact
import Verif.Props.C56
import Verif.Props.C56Compose
import Verif.Props.C56Zero
import Verif.Props.C57
import Verif.Props.C58
import Verif.Props.C59
import Verif.Props.C60
import Verif.Props.C60Value
import Verif.Props.C61
import Verif.Props.C61Go
import Verif.Props.C61Huge
import Verif.Props.C62
import Verif.Props.C63
import Verif.Props.C64
import Verif.Props.C65
import Verif.Props.C65Package
import Verif.Props.C66
import Verif.Props.C66Unique
import Verif.Props.C67
import Verif.Props.C67Package
import Verif.Props.C68
import Verif.Props.C69
import Verif.Props.C70
import Verif.Props.C71
import Verif.Props.C72
import Verif.Props.C73
import Verif.Props.C74
import Verif.Props.C75
import Verif.Props.C76
import Verif.Props.C77
import Verif.Props.C78
import Verif.Props.C79
import Verif.Props.C80
import Verif.Props.C81
import Verif.Props.C82
import Verif.Props.C83
import Verif.Props.C84
import Verif.Props.C85
import Verif.Props.C86
import Verif.Props.C87
import Verif.Props.C88
import Verif.Props.C89
import Verif.Props.C90
import Verif.Props.C91
import Verif.Props.C92
import Verif.Props.C93
import Verif.Props.C94
import Verif.Props.C94Package
import Verif.Props.C95
import Verif.Props.C95Package
import Verif.Props.C96
import Verif.Props.C97
import Verif.Props.C98
import Verif.Props.C99
import Verif.Props.C99Box
import Verif.Spec.Additions
import Verif.Spec.Alike
import Verif.Spec.Conform
import Verif.Spec.Crash
import Verif.Spec.Decimal
import Verif.Spec.Document
import Verif.Spec.Exact
import Verif.Spec.GoNumber
import Verif.Spec.Markup
import Verif.Spec.Number
import Verif.Spec.Package
import Verif.Spec.Pieces
import Verif.Spec.Prefix
import Verif.Spec.Renumber
import Verif.Spec.Reorder
import Verif.Spec.Round
import Verif.Spec.Rules
import Verif.Spec.Savable
import Verif.Spec.Schema
import Verif.Spec.Search
import Verif.Spec.Settled
import Verif.Spec.Thin
import Verif.Spec.Uniq
import Verif.Spec.Utf8
import Verif.Spec.WellFormed
import Verif.Spec.Writable
import Verif.Spec.XmlText
import Verif.Tests.Consts
import Verif.Tests.Core
import Verif.Tests.Cube
import Verif.Tests.Encode
import Verif.Tests.Ext
import Verif.Tests.Read
import Verif.Tests.Validate
