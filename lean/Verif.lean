import Verif.Props.Atr
import Verif.Props.AtrDir
import Verif.Props.AtrSample
import Verif.Props.Buffer
import Verif.Props.Sound
import Verif.Props.SoundSong
import Verif.Props.Cadence
import Verif.Props.Cmc
import Verif.Props.Dlt
import Verif.Props.Duration
import Verif.Props.Ext
import Verif.Props.Fc
import Verif.Props.FlashPack
import Verif.Props.Depacker
import Verif.Props.Info
import Verif.Props.InfoLoad
import Verif.Props.Isa
import Verif.Props.Load
import Verif.Props.Noise
import Verif.Props.Playback
import Verif.Props.Player
import Verif.Props.Pokey
import Verif.Props.Relocate
import Verif.Props.Sap
import Verif.Props.SapWrite
import Verif.Props.Stil
import Verif.Props.Tracker
import Verif.Props.Wav
import Verif.Props.Write
import Verif.Props.XexInfo
import Verif.Props.Convert
import Verif.Props.ConvertPlay
import Verif.Props.ConvertCases
import Verif.Props.ConvertPosition
import Verif.Props.ConvertUnmarked
import Verif.Props.Bus
import Verif.Model.Conv
import Verif.Spec.Conv
import Verif.Lemmas.Conv
import Verif.Lemmas.ConvWav
import Verif.Lemmas.ConvAny
import Verif.Props.LoadAny
import Verif.Props.Conv
import Verif.Props.ConvCase
import Verif.Props.ConvArgs
import Verif.Model.Scan
import Verif.Spec.Scan
import Verif.Lemmas.Scan
import Verif.Props.Scan
import Verif.Props.Fingerprint
import Verif.Props.ScanCase
import Verif.Model.Txt
import Verif.Spec.Txt
import Verif.Props.Txt
import Verif.Spec.Unofficial
import Verif.Lemmas.Unofficial
import Verif.Lemmas.UnofficialRun
import Verif.Props.Unofficial
import Verif.Model.Trace
import Verif.Spec.Trace
import Verif.Props.Trace
import Verif.Spec.Pattern
import Verif.Lemmas.Pattern
import Verif.Lemmas.PatternDet
import Verif.Lemmas.PatternMpt
import Verif.Props.Pattern
import Verif.Props.PatternCases
import Verif.Spec.RmtSong
import Verif.Lemmas.RmtSong
import Verif.Lemmas.RmtSound
import Verif.Lemmas.RmtTunes
import Verif.Lemmas.RmtDet
import Verif.Props.RmtSong
import Verif.Props.RmtSongCases
import Verif.Model.Int32
import Verif.Spec.Int32
import Verif.Lemmas.Int32
import Verif.Props.Int32
import Verif.Spec.Fresh
import Verif.Lemmas.Kin
import Verif.Props.Fresh
import Verif.Props.FreshCase
import Verif.Props.TitleScreen
import Verif.Props.Countdown
import Verif.Props.Schedule
import Verif.Props.Interrupt
import Verif.Props.Digital
import Verif.Props.Reset
import Verif.Props.Start
import Verif.Props.Banks
