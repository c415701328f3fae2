import Verif.Invar.Props
import Verif.Symm.Props
import Verif.Subspaces.Props
import Verif.Trunc.Props
import Verif.Store.Props
import Verif.Sched.Props
import Verif.Text.Props
import Verif.Param.Props
import Verif.Config.Props
import Verif.Num.Props
import Verif.Thermo.FdmProps
import Verif.Spin.Props
import Verif.Mat.Props
import Verif.Dm.Props
import Verif.Dm.FdmProps
import Verif.Ops.Props
import Verif.Diag.Props
import Verif.Spectral.BinsProps
import Verif.Spectral.PatchProps
import Verif.Spectral.AlgoProps
import Verif.Spectral.AltProps
import Verif.Out.Props
import Verif.Tools.LinIntProps
import Verif.Tools.ChainProps
import Verif.Tools.SpectraProps
import Verif.Inst.Props
import Verif.Hop.Props
import Verif.Tools.AvgProps
import Verif.Tools.HilbProps
import Verif.Oper.Props
import Verif.Coef.Props
import Verif.Sumrule.Examples
import Verif.Select.Props
import Verif.DataFile.Props
import Verif.Broad.Props
import Verif.Broad.ToolProps
import Verif.Kk.Props
import Verif.Mats.Props
import Verif.Table.Props
import Verif.Adapt.StepProps
import Verif.Adapt.OdeProps
import Verif.Adapt.ToolProps
import Verif.Param.ToolProps
import Verif.Seed.Cmd
import Verif.NrgChain.Input
import Verif.Job.Example
import Verif.Sweep.Example
import Verif.Bw.Example
import Verif.Gemm.Example
import Verif.Mx.Example
import Verif.Start.Layer
import Verif.Start.Launch
import Verif.Start.Scratch
import Verif.Start.Sym
import Verif.Resample.Bad
import Verif.Calc.Bad
import Verif.Calc.AgreeBad
import Verif.Cmd.Bad
import Verif.Hrun.Bad
import Verif.Zrun.Bad
import Verif.Qrun.Bad
import Verif.Mrun.Bad
import Verif.Brun.Bad
import Verif.Arun.Bad
import Verif.Raw.Bad
import Verif.Hw.Bad
import Verif.Wrun.Bad
