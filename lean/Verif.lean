import Verif.Rust.Prelude
import Verif.Model.ArrayAdapter
import Verif.Model.Util
import Verif.Model.FasterPam
import Verif.Model.Pam
import Verif.Model.FastPam1
import Verif.Model.Alternating
import Verif.Model.Silhouette
import Verif.Model.Initialization
import Verif.Model.FasterMsc
import Verif.Model.FastMsc
import Verif.Model.PamMedSil
import Verif.Model.PamSil
import Verif.Model.DynMsc
import Verif.Model.ParFasterPam
import Verif.Laws
import Verif.Instances
import Verif.Spec
import Verif.Proofs.Basic
import Verif.Proofs.PureFasterPam
import Verif.Proofs.PurePam
import Verif.Proofs.Cache
import Verif.Proofs.CacheLoops
import Verif.Examples
import Verif.Props.C06_C07
import Verif.Proofs.Loss
import Verif.Proofs.Chain
import Verif.Proofs.LossLoops
import Verif.Proofs.Single
import Verif.Proofs.Build
import Verif.Proofs.Outcome
import Verif.Props.C08_C16
import Verif.Props.C18_C23
import Verif.Proofs.Par
import Verif.Proofs.Repeat
import Verif.Proofs.ParMutex
import Verif.Proofs.ParPanic
import Verif.Props.C17
import Verif.Props.C24_C28
import Verif.Proofs.MscLoops
import Verif.Proofs.MscK2
import Verif.Props.C29_C35
import Verif.Proofs.PureDyn
import Verif.Proofs.DynRemoval
import Verif.Props.C36_C38
import Verif.Proofs.PamSilExact
import Verif.Proofs.PmsBuild
import Verif.Props.C39_C43
import Verif.Proofs.ParAny
import Verif.Props.C44
import Verif.Props.C52
import Verif.Proofs.Hom
import Verif.Props.C45
import Verif.Proofs.Bounded
import Verif.Props.C46
import Verif.Model.Assertions
import Verif.Proofs.Assertions
import Verif.Props.C53
import Verif.Proofs.Descent
import Verif.Props.C54
import Verif.Props.C55
import Verif.Props.C56
import Verif.Props.Scope
import Verif.Proofs.SilHom
import Verif.Props.C57
import Verif.Fl
import Verif.Proofs.BitLoss
import Verif.Props.C58
import Verif.Ext
import Verif.Rounded
import Verif.Proofs.BitMsc
import Verif.Proofs.BitK2
import Verif.Props.C59
import Verif.Proofs.Iter
import Verif.Proofs.Trunc
import Verif.Proofs.Limit
import Verif.Props.C60
import Verif.Props.C61
import Verif.Props.C62
import Verif.Props.C63
import Verif.Proofs.Approx
import Verif.Props.C64
import Verif.Props.C65
import Verif.Proofs.RelErr
import Verif.Ieee
import Verif.Props.C66
import Verif.Proofs.FloatLoss
import Verif.Proofs.FloatSwap
import Verif.Proofs.Quiet
import Verif.Props.C67
import Verif.Proofs.BoundedPar
import Verif.Proofs.Grid
import Verif.Props.C68
import Verif.Props.C69
import Verif.Props.C70
import Verif.Proofs.BuildAny
import Verif.Proofs.FloatBuild
import Verif.Props.C71
import Verif.Proofs.RoundTerm
import Verif.Props.C72
import Verif.Proofs.FloatPar
import Verif.Props.C73
import Verif.Props.C74
import Verif.Props.C75
import Verif.Props.C76
import Verif.Props.C77
import Verif.Props.C78
import Verif.Props.C79
import Verif.Props.C80
import Verif.Props.C81
import Verif.Props.C82
import Verif.Props.C83
import Verif.Props.C84
import Verif.Model.Cost
import Verif.Proofs.Cost
import Verif.Proofs.CostBounds
import Verif.Proofs.CostTotals
import Verif.Props.C85
import Verif.Props.C86
import Verif.Props.C87
import Verif.Props.C88
import Verif.Proofs.Eager
import Verif.Props.C89
import Verif.Props.C90
import Verif.Props.C91
import Verif.Props.C92
import Verif.Props.C93
import Verif.Props.C94
import Verif.Props.C95
import Verif.Props.C96
import Verif.Props.C97
import Verif.Props.C98
import Verif.Props.C99
import Verif.Props.C100
import Verif.Props.C101
import Verif.Props.C102
import Verif.Props.C103
import Verif.Props.C104
import Verif.Props.C105
import Verif.Props.C106
import Verif.Applied.C01_C23
import Verif.Applied.C45_C90
import Verif.Applied.Floats
import Verif.Applied.C85_C92
import Verif.Applied.C52_C65
import Verif.Applied.C24_C53
import Verif.Proofs.RowOrderMsc
import Verif.Props.C107
import Verif.Proofs.PamSilDup
import Verif.Props.C42b
import Verif.Props.C26b
import Verif.Proofs.RowOrderBuild
import Verif.Props.C108
import Verif.Props.C109
import Verif.Props.C27b
import Verif.Proofs.PmsBuildAny
import Verif.Props.C110
import Verif.Model.Bench
import Verif.Props.C111
import Verif.Model.Checked
import Verif.Proofs.CheckedErase
import Verif.Proofs.CheckedBounded
import Verif.Proofs.CheckedPar
import Verif.Props.C112
import Verif.Proofs.Separated
import Verif.Props.C113
import Verif.Proofs.SeparatedFloat
import Verif.Props.C114
import Verif.Proofs.SeparatedSil
import Verif.Props.C115
import Verif.Proofs.SilBound
import Verif.Proofs.SeparatedSilhouette
import Verif.Props.C116
import Verif.Props.C117
import Verif.Props.C118
import Verif.Props.C119
import Verif.Props.C120
import Verif.Props.C121
import Verif.Props.C122
import Verif.Props.C123
import Verif.Props.C124
import Verif.Props.C125
import Verif.Props.C126
import Verif.Props.C127
import Verif.Props.C128
import Verif.Props.C129
import Verif.Props.C130
import Verif.Props.C131
import Verif.Props.C132
import Verif.Props.C133
import Verif.Props.C134
import Verif.Props.C134Few
import Verif.Props.C135
import Verif.Props.C135Three
import Verif.Props.C135Two
import Verif.Props.C136
import Verif.Props.C136All
import Verif.Props.C137
import Verif.Props.C138
import Verif.Tests
import Verif.Props.C01_C03
import Verif.Props.C04_C05_C10
