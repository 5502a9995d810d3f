import Verif.Mem.Props
import Verif.Params.Props
import Verif.Time.Props
import Verif.CritErr.Props
import Verif.Alarm.Props
import Verif.Pid.Props
import Verif.Operation.Props
import Verif.TechObj.Props
import Verif.Actions.Props
import Verif.RecFile.Props
import Verif.Recipe.Props
import Verif.PacInfo.Props
import Verif.Panel.Props
import Verif.Analog.Props
import Verif.CipSet.Props
import Verif.Column.Props
import Verif.Counter.Props
import Verif.Device.Props
import Verif.ValveOff.Props
import Verif.Valve.Props
import Verif.BitIo.Props
import Verif.Timer.Props
import Verif.Debounce.Props
import Verif.Motor.Props
import Verif.Thld.Props
import Verif.Fqt.Props
import Verif.Tcp.Props
import Verif.DevSrv.Props
import Verif.Text.Props
import Verif.Modbus.Props
import Verif.Coupler.Props
import Verif.Registry.Props
import Verif.ParDev.Props
import Verif.CipRec.Props
import Verif.Cip.Props
import Verif.Cip.PropsStop
import Verif.Cip.PropsOrder
import Verif.Cip.PropsSolo
import Verif.CipRec.PropsDefaults
import Verif.CipErr.Props
import Verif.MbClient.Props
import Verif.MbClient.PropsAsync
import Verif.Altivar.Props
import Verif.CipStats.PropsCount
import Verif.Siren.Props
import Verif.Led.Props
import Verif.LuaCall.Props
import Verif.IolSens.Props
import Verif.Scales.Props
import Verif.Camera.Props
import Verif.Supply.Props
import Verif.SaveDev.Props
import Verif.IolValve.Props
import Verif.ObjText.Props
import Verif.SysText.Props
import Verif.CipProg.Props
import Verif.ValveMore.Props
import Verif.AlarmText.Props
import Verif.CipDev.Props
import Verif.CipDose.Props
import Verif.TcpCl.Props
import Verif.CipPid.Props
import Verif.MainLoop.Props
import Verif.Guard.Props
import Verif.Boot.Props
import Verif.CplSock.Props
import Verif.AnaDev.Props
import Verif.Rfid.Props
import Verif.CipSig.Props
import Verif.CipFlow.PropsMix
import Verif.CipFlow.PropsSort
import Verif.CipFlow.PropsFill
import Verif.CipFlow.PropsReturn
import Verif.CipLua.Props
import Verif.IoConf.Props
import Verif.Kbus.Props
import Verif.CipText.Props
import Verif.CipText.PropsCmd
import Verif.Swmrg.Props
import Verif.Profibus.Props
import Verif.CipEnd.Props
import Verif.Start.Props
import Verif.ColDir.Props
import Verif.OpcUa.Props
import Verif.SyncCl.Props
import Verif.Medium.Props
import Verif.TextFile.Props
import Verif.DevCmd.Props
import Verif.PlcNext.Props
import Verif.RecSave.Props
import Verif.ActCfg.Props
import Verif.ObjMgr.Props
import Verif.ParInit.Props
import Verif.CipLines.Props
import Verif.PbInit.Props
import Verif.PidLink.Props
import Verif.SmartPtr.Props
import Verif.MemDev.Props
import Verif.Article.Props
import Verif.WinCl.Props
import Verif.WinCm.Props
import Verif.RecText.Props
import Verif.StReload.Props
import Verif.MsgText.Props
import Verif.LineDev.Props
import Verif.PanCtl.Props
import Verif.CarWash.Props
import Verif.PanText.Props
import Verif.PanStat.Props
import Verif.Journal.Props
import Verif.RetPump.Props
import Verif.StepOut.Props
import Verif.ParOut.Props
import Verif.Resume.Props
import Verif.StepDur.Props
import Verif.StepMax.Props
import Verif.Emul.Props
import Verif.EmuDev.Props
import Verif.VirtDev.Props
import Verif.VirtValve.Props
import Verif.EmuScale.Props
import Verif.EmuPower.Props
import Verif.EmuCam.Props
import Verif.EmuTemp.Props
import Verif.EmuFlow.Props
