import Verif.Props.Kernel
import Verif.Props.Diis
import Verif.Props.Driver
import Verif.Props.Pack
import Verif.Props.Xccd
import Verif.Props.Stored
import Verif.Props.Denoms
import Verif.Props.Antisym
import Verif.Props.Ccd
import Verif.Props.SpinCcd
import Verif.Props.Fragments
import Verif.Props.Relabel
import Verif.Props.SpinFlip
import Verif.Props.Triples
import Verif.Props.Pccd
import Verif.Props.OpenShell
import Verif.Props.Ucc4
import Verif.Props.SpinCc
import Verif.Props.Quadruples
import Verif.Props.Setup
import Verif.Props.Xacc
import Verif.Props.Amp
import Verif.Props.Drive
import Verif.Props.Alias
import Verif.Props.PccdCorr
import Verif.Props.Projected
import Verif.Props.Exact
import Verif.Props.Matrix
import Verif.Props.XccdBase
import Verif.Props.Few
import Verif.Props.Sizes
import Verif.Props.SpinProjected
import Verif.Props.Rotate
import Verif.Props.RotateSol
import Verif.Props.Shapes
import Verif.Props.AmpPert
import Verif.Ein.SpinRot
import Verif.Props.Singlet
import Verif.Ein.ChargeCol
import Verif.Ein.ChargeArrays
import Verif.Props.Selection
import Verif.Model.Whole
import Verif.Props.Whole
import Verif.Props.SpinHigh
import Verif.Model.FullCC
import Verif.Ein.Blocks
import Verif.Props.FullCC
import Verif.Model.WholeSlow
import Verif.Lemmas.WitnessR
import Verif.Props.WholeSlow
import Verif.Props.WholeRotate
import Verif.Model.WholeFull
import Verif.Props.CcdqSym
import Verif.Props.WholeFull
import Verif.Lemmas.Contract
import Verif.Ein.Tame
import Verif.Props.Weak
import Verif.Ein.Cast
import Verif.Model.WholeUcc4
import Verif.Props.WholeUcc4
import Verif.Props.Ucc4Canon
import Verif.Props.Ucc4Diis
import Verif.Props.Units
import Verif.Props.WholeDrive
import Verif.Props.WholeDriveEq
import Verif.Props.PerturbE
import Verif.Props.Wicked
import Verif.Props.WeakCC
import Verif.Lemmas.Corrections
import Verif.Props.WeakQf
import Verif.Props.SlowDiis
import Verif.Props.SpinDiis
