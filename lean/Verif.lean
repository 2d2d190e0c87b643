import Verif.GetBits.Props
import Verif.Msac.Props
import Verif.Obu.SeqProps
import Verif.Obu.FrameProps
import Verif.Api.ObuProps
import Verif.Api.OrderProps
import Verif.Api.OpenProps
import Verif.Api.FlushProps
import Verif.Api.ErrorProps
import Verif.Api.LayerProps
import Verif.Api.EventLemmas
import Verif.Api.FlagLemmas
import Verif.Api.EventProps
import Verif.Api.RecoverKey
import Verif.Api.RecoverLemmas
import Verif.Api.RecoverMain
import Verif.Api.RecoverProps
import Verif.Api.SlotProps
import Verif.Decode.TileDataProps
import Verif.Mem.RefProps
import Verif.Mem.PoolProps
import Verif.Mem.PicAllocProps
import Verif.Dsp.EmuProps
import Verif.Dsp.ItxProps
import Verif.Dsp.CdefDir
import Verif.Dsp.LfEdge
import Verif.Dsp.IpredRec
import Verif.Dsp.WarpAffine
import Verif.Dsp.WedgeProps
import Verif.Dsp.TableProps
import Verif.Dsp.LrProps
import Verif.Dsp.FgProps
import Verif.Tools.InputProps
import Verif.Tools.Md5Props
import Verif.Thread.SchedProps
import Verif.Thread.FramesProps
import Verif.Cdf.Props
import Verif.Coef.Props
import Verif.Part.Props
import Verif.Part.TxProps
import Verif.Part.EdgeProps
import Verif.Part.CtxProps
import Verif.Part.LpfProps
import Verif.Syn.HeadProps
import Verif.Syn.CopyProps
import Verif.Syn.PalProps
import Verif.Syn.IntraProps
import Verif.Syn.InterProps
import Verif.Syn.VartxProps
import Verif.Syn.LruProps
import Verif.Syn.LrsProps
import Verif.Syn.CdfProps
import Verif.Syn.CdmProps
import Verif.Syn.CdmPart
import Verif.Syn.SrProps
import Verif.Syn.SrChain
import Verif.Syn.PostChain
