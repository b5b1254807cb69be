import Verif.Examples.Any
import Verif.Examples.Demo
import Verif.Examples.Dual
import Verif.Examples.Flat
import Verif.Examples.Mono
import Verif.Examples.More
import Verif.Examples.Objects
import Verif.Examples.OneMore
import Verif.Examples.Stable
import Verif.Examples.Statistics
import Verif.Examples.Use1
import Verif.Examples.Use2
import Verif.Examples.Use3
import Verif.Examples.Use4
import Verif.Examples.Use5
import Verif.Examples.Use6
import Verif.Examples.Use7
import Verif.Examples.Use8
import Verif.Examples.Use9
import Verif.Lemmas.Accept
import Verif.Lemmas.Accepted
import Verif.Lemmas.Accepts
import Verif.Lemmas.Affine
import Verif.Lemmas.Amax
import Verif.Lemmas.Answer
import Verif.Lemmas.ArgDist
import Verif.Lemmas.Arrays
import Verif.Lemmas.Asc
import Verif.Lemmas.AscHeader
import Verif.Lemmas.AscRead
import Verif.Lemmas.Backend
import Verif.Lemmas.Balls
import Verif.Lemmas.Blue
import Verif.Lemmas.BlueMono
import Verif.Lemmas.BlueRow
import Verif.Lemmas.CondNeg
import Verif.Lemmas.Continuity
import Verif.Lemmas.Create
import Verif.Lemmas.Dist
import Verif.Lemmas.DriftComb
import Verif.Lemmas.DriftSpan
import Verif.Lemmas.Embed
import Verif.Lemmas.Field
import Verif.Lemmas.Fit
import Verif.Lemmas.FitUnit
import Verif.Lemmas.Heap
import Verif.Lemmas.Heap3
import Verif.Lemmas.Heap3Upd
import Verif.Lemmas.Heap3Update
import Verif.Lemmas.HeapOK
import Verif.Lemmas.HeapUK
import Verif.Lemmas.HeapUK3
import Verif.Lemmas.HeapUKExec
import Verif.Lemmas.HeapUpdate
import Verif.Lemmas.Helmert
import Verif.Lemmas.Inexact
import Verif.Lemmas.InexactExact
import Verif.Lemmas.InexactExec
import Verif.Lemmas.InexactTo
import Verif.Lemmas.KrigMat
import Verif.Lemmas.Krige
import Verif.Lemmas.Laws
import Verif.Lemmas.LawsOK
import Verif.Lemmas.LawsOK3D
import Verif.Lemmas.LawsUK
import Verif.Lemmas.LawsUK3
import Verif.Lemmas.Metric
import Verif.Lemmas.MetricCongr
import Verif.Lemmas.ModelValid
import Verif.Lemmas.Nan
import Verif.Lemmas.NanAccept
import Verif.Lemmas.NanAll
import Verif.Lemmas.NanBins
import Verif.Lemmas.NanCreate
import Verif.Lemmas.NanOK
import Verif.Lemmas.Nearest
import Verif.Lemmas.Numbers
import Verif.Lemmas.OK3DExec
import Verif.Lemmas.OKExec
import Verif.Lemmas.OnlyDist
import Verif.Lemmas.PWCreate
import Verif.Lemmas.Perm
import Verif.Lemmas.Pinv
import Verif.Lemmas.Pointwise
import Verif.Lemmas.PowerCND
import Verif.Lemmas.Pseudo
import Verif.Lemmas.Py
import Verif.Lemmas.Query
import Verif.Lemmas.Redundant
import Verif.Lemmas.Relabel
import Verif.Lemmas.Reparam
import Verif.Lemmas.Rounding
import Verif.Lemmas.Rows
import Verif.Lemmas.SameModel
import Verif.Lemmas.SameZ
import Verif.Lemmas.Sel
import Verif.Lemmas.Select
import Verif.Lemmas.Sequential
import Verif.Lemmas.Session
import Verif.Lemmas.Shift
import Verif.Lemmas.Sphere
import Verif.Lemmas.SphereCaps
import Verif.Lemmas.SphereCov
import Verif.Lemmas.SphereSph
import Verif.Lemmas.SphereValid
import Verif.Lemmas.Stable
import Verif.Lemmas.Text
import Verif.Lemmas.Threads
import Verif.Lemmas.ThreadsNew
import Verif.Lemmas.ThreadsRun
import Verif.Lemmas.ThreadsSafe
import Verif.Lemmas.ToUK
import Verif.Lemmas.ToUK3
import Verif.Lemmas.UK3DExec
import Verif.Lemmas.UKDrift
import Verif.Lemmas.UKExec
import Verif.Lemmas.UKMat
import Verif.Lemmas.UKValid
import Verif.Lemmas.Update
import Verif.Lemmas.Validity
import Verif.Lemmas.Verbose
import Verif.Lemmas.VerboseWalk
import Verif.Lemmas.Wf
import Verif.Lemmas.Window
import Verif.Lemmas.Zmap
import Verif.Lemmas.ZmapRead
import Verif.Model.Arrays
import Verif.Model.CK
import Verif.Model.Compat
import Verif.Model.Core
import Verif.Model.Footer
import Verif.Model.Frontend
import Verif.Model.Heap
import Verif.Model.Heap3
import Verif.Model.HeapUK
import Verif.Model.HeapUK3
import Verif.Model.History
import Verif.Model.Ilr
import Verif.Model.Inexact
import Verif.Model.InexactOK3D
import Verif.Model.InexactUK
import Verif.Model.InexactUK3D
import Verif.Model.LinAlg
import Verif.Model.Nan
import Verif.Model.NanOK3D
import Verif.Model.NanUK
import Verif.Model.NanUK3D
import Verif.Model.OK
import Verif.Model.OK3D
import Verif.Model.Params
import Verif.Model.RK
import Verif.Model.Race
import Verif.Model.Race3
import Verif.Model.RaceUK
import Verif.Model.RaceUK3
import Verif.Model.Report
import Verif.Model.Score
import Verif.Model.Sklearn
import Verif.Model.Text
import Verif.Model.Threads
import Verif.Model.Tools
import Verif.Model.UK
import Verif.Model.UK3D
import Verif.Model.VariogramModels
import Verif.Model.Verbose
import Verif.Props.C01
import Verif.Props.C01Meaning
import Verif.Props.C02
import Verif.Props.C03
import Verif.Props.C04
import Verif.Props.C05
import Verif.Props.C06
import Verif.Props.C07
import Verif.Props.C08
import Verif.Props.C09
import Verif.Props.C10
import Verif.Props.C11
import Verif.Props.C12
import Verif.Props.C13
import Verif.Props.C14
import Verif.Props.C15
import Verif.Props.C16
import Verif.Props.C16Angle
import Verif.Props.C16Turn
import Verif.Props.C17
import Verif.Props.C17Globe
import Verif.Props.C17Mirror
import Verif.Props.C17Space
import Verif.Props.C17Wells
import Verif.Props.C18
import Verif.Props.C19
import Verif.Props.C19Accept
import Verif.Props.C20
import Verif.Props.C21
import Verif.Props.C22
import Verif.Props.C23
import Verif.Props.C24
import Verif.Props.C25
import Verif.Props.C26
import Verif.Props.C27
import Verif.Props.C28
import Verif.Props.C29
import Verif.Props.C30
import Verif.Props.C31
import Verif.Props.C32
import Verif.Props.C32Which
import Verif.Props.C33
import Verif.Props.C34
import Verif.Props.C35
import Verif.Props.C35Exact
import Verif.Props.C36
import Verif.Props.C37
import Verif.Props.C38
import Verif.Props.C39
import Verif.Props.C39Accept
import Verif.Props.C39UK
import Verif.Props.C40
import Verif.Props.C41
import Verif.Props.C41Wells
import Verif.Props.C42
import Verif.Props.C43
import Verif.Props.C44
import Verif.Props.C44OK3D
import Verif.Props.C44UK
import Verif.Props.C44UK3D
import Verif.Props.C45
import Verif.Props.C46
import Verif.Props.C47
import Verif.Props.C47Unique
import Verif.Props.C48
import Verif.Props.C49
import Verif.Props.C50
import Verif.Props.C51
import Verif.Props.C52
import Verif.Props.C53
import Verif.Props.C54
import Verif.Props.C55
import Verif.Props.C55UK
import Verif.Props.C56
import Verif.Props.C57
import Verif.Props.C58
import Verif.Props.C59
import Verif.Props.C60
import Verif.Props.C61
import Verif.Props.C62
import Verif.Props.C63
import Verif.Props.C64
import Verif.Props.C65
import Verif.Props.C66
import Verif.Props.C67
import Verif.Props.C68
import Verif.Props.C69
import Verif.Props.C70
import Verif.Props.C71
import Verif.Props.C72
import Verif.Props.C73
import Verif.Props.C74
import Verif.Props.C74Iter
import Verif.Props.C74OK3D
import Verif.Props.C74UK
import Verif.Props.C74UK3D
import Verif.Props.C75
import Verif.Props.C76
import Verif.Props.C76Ex
import Verif.Props.C76Values
import Verif.Props.C77
import Verif.Props.C77Ex
import Verif.Props.C78
import Verif.Props.C79
import Verif.Props.C80
import Verif.Props.C81
import Verif.Props.C82
import Verif.Props.C82Messages
import Verif.Props.C83
import Verif.Props.C83Update
import Verif.Props.C84
import Verif.Py
import Verif.Spec.Accept
import Verif.Spec.Admit
import Verif.Spec.Best
import Verif.Spec.Distance
import Verif.Spec.Drift
import Verif.Spec.Env
import Verif.Spec.Field
import Verif.Spec.Files
import Verif.Spec.Fit
import Verif.Spec.Inexact
import Verif.Spec.Kriging
import Verif.Spec.Memory
import Verif.Spec.Nan
import Verif.Spec.Numbers
import Verif.Spec.Query
import Verif.Spec.Request
import Verif.Spec.Score
import Verif.Spec.Setting
import Verif.Spec.Sklearn
import Verif.Spec.Sphere
import Verif.Spec.Sums
import Verif.Spec.Textbook
import Verif.Spec.Threads
import Verif.Spec.Update
import Verif.Spec.Valid
import Verif.Spec.Verbose
import Verif.Spec.Wrapper
