import Verif.Hier.H6g2P
import Verif.Hier.Props5
import Verif.Base.FOps
import Verif.Base.Dbl
import Verif.Base.Mat
import Verif.Base.Params
import Verif.HObj.Model
import Verif.HObj.Spec
import Verif.HObj.Props
import Verif.Iface.Model
import Verif.Iface.Spec
import Verif.Iface.Lemmas
import Verif.Iface.Diag
import Verif.Iface.Props1
import Verif.Iface.Props2
import Verif.Iface.Props3
import Verif.Iface.Props4
import Verif.Select.Model
import Verif.Select.Props
import Verif.Calc.Formulas
import Verif.Calc.Model
import Verif.Calc.Api
import Verif.Calc.Lemmas
import Verif.Calc.Props1
import Verif.Calc.Frame
import Verif.Calc.Props2
import Verif.Calc.Props3
import Verif.Calc.Total
import Verif.Calc.Props3Ex
import Verif.Calc.Props4
import Verif.Calc.Props5
import Verif.Calc.Props6
import Verif.Hier.Classes
import Verif.Hier.Props
import Verif.Linalg.Model
import Verif.Linalg.Props
import Verif.FO.Spectrum
import Verif.FO.SpectrumProps
import Verif.FO.OneLoop
import Verif.FO.OneLoopZero
import Verif.FO.OneLoopProps
import Verif.PV.Model
import Verif.PV.Props
import Verif.PV.FB
import Verif.PV.General
import Verif.PV.Reg
import Verif.PV.Pert
import Verif.PV.Equal
import Verif.PV.Large
import Verif.PV.Accuracy
import Verif.PV.Deriv
import Verif.Misc.Model
import Verif.Misc.Props
import Verif.Link.Model
import Verif.Link.Props
import Verif.Raii.Model
import Verif.Raii.Props
import Verif.Conc.Model
import Verif.Conc.Props
import Verif.Conc.Banner
import Verif.TwoLoop.Model
import Verif.TwoLoop.Wrappers
import Verif.TwoLoop.Guards
import Verif.TwoLoop.Sym
import Verif.TwoLoop.Cont
import Verif.Base.PolyCheck
import Verif.Li2.Spec
import Verif.Li2.Model
import Verif.Li2.Pade
import Verif.Li2.Props
import Verif.Base.Orders
import Verif.FO.MassEigen
import Verif.FO.MomIt
import Verif.FO.MassEigenProps
import Verif.EFT.Formulas
import Verif.EFT.Model
import Verif.EFT.Scheme
import Verif.EFT.Shift2
import Verif.EFT.Switches
import Verif.EFT.Limit
import Verif.EFT.Taylor
import Verif.EFT.Repr
import Verif.EFT.Lam
import Verif.EFT.LamQU
import Verif.EFT.LamQG
import Verif.EFT.LamUG
import Verif.EFT.LamQUG
import Verif.EFT.LamVal
import Verif.EFT.Dilog
import Verif.EFT.Cont
import Verif.EFT.ContApi
import Verif.EFT.Scale
import Verif.EFT.ScaleGen
import Verif.EFT.ScaleLim
import Verif.EFT.ScaleApi
import Verif.EFT.Other
import Verif.EFT.Scale1
import Verif.Kron.Core
import Verif.Kron.Sound
import Verif.Kron.Rep
import Verif.Kron.Check
import Verif.EFT.Formulas2
import Verif.EFT.Shape
import Verif.EFT.DropCheck
import Verif.EFT.Model2
import Verif.EFT.Point
import Verif.EFT.Drop
import Verif.Li2.ClSpec
import Verif.Li2.ClTab
import Verif.Li2.ClModel
import Verif.Li2.ClPade
import Verif.Li2.ClProps
import Verif.TLF.Model
import Verif.TLF.Spec
import Verif.TLF.RealForm
import Verif.TLF.Near
import Verif.TLF.One
import Verif.TLF.Props1
import Verif.TLF.Int
import Verif.TLF.Two
import Verif.TLF.Two2
import Verif.TLF.Four
import Verif.TLF.Four1
import Verif.TLF.Four2
import Verif.TLF.Four3
import Verif.TLF.Four4
import Verif.TLF.Props2
import Verif.TLF.Phi
import Verif.TLF.PhiSpec
import Verif.TLF.PhiProps1
import Verif.TLF.PhiProps2
import Verif.TLF.PhiProps3
import Verif.TLF.PhiProps4
import Verif.TLF.PhiProps5
import Verif.TwoLoop.PhiC
import Verif.TwoLoop.Limit
import Verif.TwoLoop.Degenerate
import Verif.TwoLoop.DegProps
import Verif.Li2.CSpec
import Verif.Li2.CSeries
import Verif.Li2.CErr
import Verif.Li2.CProps
import Verif.Li2.FModel
import Verif.Li2.FProps
import Verif.Li2.BW
import Verif.TwoLoop.PhiF
import Verif.TwoLoop.PhiFProps
import Verif.TwoLoop.PhiFSmall
import Verif.EFT.Yt6
import Verif.EFT.Yt6Check
import Verif.EFT.Yt6Scale
import Verif.EFT.Yt6Api
import Verif.EFT.Yt6Props
import Verif.EFT.OmitLogs
import Verif.EFT.Yuk
import Verif.EFT.Dep
import Verif.EFT.Pole2
import Verif.EFT.UnitsF
import Verif.EFT.Units
import Verif.EFT.UnitsApi
import Verif.EFT.SignsF
import Verif.EFT.Signs
import Verif.EFT.SignsMu
import Verif.EFT.Family
import Verif.EFT.Charges
import Verif.EFT.OmitLogs2
import Verif.EFT.OmitLogs3
import Verif.EFT.Yt6Pole
import Verif.Hier.Coef
import Verif.Hier.CoefBase
import Verif.Hier.Ctor
import Verif.Hier.H3
import Verif.Hier.H32q2g
import Verif.Hier.H32q2gP
import Verif.Hier.H3P
import Verif.Hier.H3q22g
import Verif.Hier.H3q22gP
import Verif.Hier.H4
import Verif.Hier.H4P
import Verif.Hier.H5
import Verif.Hier.H5P
import Verif.Hier.H5g1
import Verif.Hier.H5g1P
import Verif.Hier.H6
import Verif.Hier.H6P
import Verif.Hier.H6b
import Verif.Hier.H6b2qg2
import Verif.Hier.H6b2qg2P
import Verif.Hier.H6bP
import Verif.Hier.H6bq22g
import Verif.Hier.H6bq22gP
import Verif.Hier.H6bq2g2
import Verif.Hier.H6bq2g2P
import Verif.Hier.H6g2
import Verif.Hier.H9
import Verif.Hier.H9P
import Verif.Hier.H9q2
import Verif.Hier.H9q2P
import Verif.Hier.Mem
import Verif.Hier.Proj
import Verif.Hier.ProjBase
import Verif.Hier.Props2
import Verif.Hier.Props3
import Verif.Hier.Props4
import Verif.Hier.Spec
import Verif.Hier.UnitsBase
import Verif.Hier.Wit
import Verif.Kron.EvalM
import Verif.Kron.Laurent
import Verif.Kron.LaurentKeys
import Verif.Kron.LaurentSubst
import Verif.Calc.UnitsFO
import Verif.Calc.UnitsSim
import Verif.PV.Units
import Verif.TwoLoop.Units
import Verif.FO.Units
import Verif.FO.UnitsSpec
