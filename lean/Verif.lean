import Verif.Props.Screen
import Verif.Props.Bitmap
import Verif.Props.Colours
import Verif.Props.Video
import Verif.Props.Movie
import Verif.Props.Audio
import Verif.Props.Opcodes
import Verif.Props.Player
import Verif.Props.Grabber
import Verif.Props.Simulator
import Verif.Props.Arrives
import Verif.Props.Server
import Verif.Props.Tables
import Verif.Props.Connect
import Verif.Props.Speed
import Verif.Props.Pause
import Verif.Model.Program
import Verif.Spec.Program
import Verif.Proofs.Program
import Verif.Props.Program
import Verif.Spec.Picture
import Verif.Proofs.Picture
import Verif.Props.Picture
import Verif.Spec.Fair
import Verif.Proofs.Fair
import Verif.Props.Fair
import Verif.Props.Shown
import Verif.Props.Quick
import Verif.Props.Causal
import Verif.Props.Machinery
import Verif.Props.Spare
import Verif.Props.Convert
import Verif.Props.Pcm
import Verif.Model.SoundFail
import Verif.Spec.SoundFail
import Verif.Props.SoundFail
import Verif.Model.Pace
import Verif.Spec.Pace
import Verif.Props.Pace
import Verif.Props.Options
import Verif.Spec.Plain
import Verif.Props.Plain
import Verif.Spec.PaletteBits
import Verif.Proofs.PaletteBits
import Verif.Props.PaletteBits
import Verif.Model.CommandLine
import Verif.Spec.CommandLine
import Verif.Proofs.CommandLine
import Verif.Props.CommandLine
import Verif.Model.Disk
import Verif.Spec.Disk
import Verif.Proofs.Disk
import Verif.Props.Disk
import Verif.Model.TableLoad
import Verif.Spec.TableLoad
import Verif.Props.TableLoad
import Verif.Model.Entire
import Verif.Spec.Entire
import Verif.Proofs.Entire
import Verif.Props.Entire
import Verif.Props.Journey
import Verif.Spec.Rerun
import Verif.Props.Rerun
import Verif.Spec.Seen
import Verif.Proofs.Seen
import Verif.Props.Seen
import Verif.Model.Buffered
import Verif.Spec.Buffered
import Verif.Proofs.Buffered
import Verif.Props.Buffered
import Verif.Spec.Cut
import Verif.Proofs.Cut
import Verif.Props.Cut
import Verif.Model.Serving
import Verif.Spec.Serving
import Verif.Proofs.Serving
import Verif.Props.Serving
import Verif.Model.Interrupt
import Verif.Spec.Interrupt
import Verif.Props.Interrupt
import Verif.Model.Beside
import Verif.Spec.Beside
import Verif.Proofs.Beside
import Verif.Props.Beside
import Verif.Model.Folder
import Verif.Spec.Folder
import Verif.Props.Folder
import Verif.Proofs.Ahead
import Verif.Props.Ahead
import Verif.Spec.Hoarse
import Verif.Props.Hoarse
import Verif.Spec.Heard
import Verif.Proofs.Heard
import Verif.Props.Heard
import Verif.Spec.Tempo
import Verif.Props.Tempo
import Verif.Model.Crowd
import Verif.Spec.Crowd
import Verif.Proofs.Crowd
import Verif.Props.Crowd
import Verif.Proofs.Timely
import Verif.Props.Lipsync
import Verif.Spec.Waits
import Verif.Proofs.Waits
import Verif.Props.Waits
import Verif.Spec.Settled
import Verif.Proofs.Settled
import Verif.Props.Settled
import Verif.Spec.Reserve
import Verif.Proofs.Reserve
import Verif.Props.Reserve
import Verif.Props.Lateness
import Verif.Props.Throughput
import Verif.Props.Viewers
