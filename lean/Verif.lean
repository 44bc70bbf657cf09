import Verif.Model.Analysis
import Verif.Model.FromFile
import Verif.Model.Kkt
import Verif.Model.QProblem
import Verif.Model.QProblemFactor
import Verif.Model.SQProblem
import Verif.Proofs.Absent
import Verif.Proofs.FarLimits
import Verif.Proofs.QPBFar
import Verif.Proofs.QPBFarRun
import Verif.Proofs.QPBGuess
import Verif.Proofs.QPBKept
import Verif.Proofs.QPBOutcome
import Verif.Proofs.QPBReport
import Verif.Proofs.QPCAdd
import Verif.Proofs.QPCAdopt
import Verif.Proofs.QPCChange
import Verif.Proofs.QPCCheck
import Verif.Proofs.QPCChol
import Verif.Proofs.QPCCold
import Verif.Proofs.QPCEqp
import Verif.Proofs.QPCFactor
import Verif.Proofs.QPCFar
import Verif.Proofs.QPCFarLoop
import Verif.Proofs.QPCFrame
import Verif.Proofs.QPCGuess
import Verif.Proofs.QPCGuessFar
import Verif.Proofs.QPCHot
import Verif.Proofs.QPCInit
import Verif.Proofs.QPCKept
import Verif.Proofs.QPCLoop
import Verif.Proofs.QPCNull
import Verif.Proofs.QPCOneSided
import Verif.Proofs.QPCOps
import Verif.Proofs.QPCOpt
import Verif.Proofs.QPCOutcome
import Verif.Proofs.QPCReg
import Verif.Proofs.QPCReport
import Verif.Proofs.QPCRuns
import Verif.Proofs.QPCSens
import Verif.Proofs.QPCSession
import Verif.Proofs.QPCSide
import Verif.Proofs.QPCSolve
import Verif.Proofs.QPCStart
import Verif.Proofs.QPCStep
import Verif.Proofs.QPCTerm
import Verif.Proofs.QPCUpdate
import Verif.Proofs.QPCVerdict
import Verif.Proofs.SQKept
import Verif.Proofs.SQNew
import Verif.Proofs.SQRun
import Verif.Proofs.TQ
import Verif.Proofs.TQUpdate
import Verif.Props.C01_C04_Indexlist
import Verif.Props.C05_C10_WorkingSet
import Verif.Props.C11_C13_Options
import Verif.Props.C14_C15_DenseProducts
import Verif.Props.C16_SparseBuild
import Verif.Props.C17_SparseProducts
import Verif.Props.C18_Access
import Verif.Props.C19_AddToDiag
import Verif.Props.C20_Bilinear
import Verif.Props.C21_Duplicate
import Verif.Props.C22_RowNorm
import Verif.Props.C23_Cholesky
import Verif.Props.C24_C26_Kernels
import Verif.Props.C27_Factor
import Verif.Props.C28_TQ
import Verif.Props.C29_C33_General
import Verif.Props.C29_C33_Homotopy
import Verif.Props.C34_General
import Verif.Props.C34_Solved
import Verif.Props.C35_Certificate
import Verif.Props.C36_C40_Queries
import Verif.Props.C37_General
import Verif.Props.C37_Residuals
import Verif.Props.C38_C41_Protocol
import Verif.Props.C38_C44_General
import Verif.Props.C42_C44_Limits
import Verif.Props.C42_General
import Verif.Props.C43_General
import Verif.Props.C43_Regularisation
import Verif.Props.C45_C49_Messages
import Verif.Props.C46_Normalise
import Verif.Props.C47_C48_Files
import Verif.Props.C50_Flipper
import Verif.Props.C51_Absent
import Verif.Props.C51_C57_General
import Verif.Props.C52_C56_Data
import Verif.Props.C52_C58_General
import Verif.Props.C53_General
import Verif.Props.C53_Guess
import Verif.Props.C54_NewMatrices
import Verif.Props.C57_Dropping
import Verif.Props.C60_C61_Submatrix
import Verif.Props.C62_Arguments
import Verif.Props.C63_CurrentEQP
import Verif.Props.C64_Covariance
import Verif.Props.C65_Repeat
import Verif.Props.C66_Bounds
import Verif.Props.C66_C68_Reports
import Verif.Props.C66_Far
import Verif.Props.C69_StartSet
import Verif.Props.C70_NewRuns
import Verif.Props.C71_Files
import Verif.Props.C72_KeptSide
import Verif.Props.C73_Options
import Verif.Spec.Adoption
import Verif.Spec.Distant
import Verif.Spec.Equality
import Verif.Spec.Factors
import Verif.Spec.HomotopyGeneral
import Verif.Spec.NearGeneral
import Verif.Spec.Report
import Verif.Spec.Residuals
import Verif.Spec.StartSet
import Verif.Spec.Triples
