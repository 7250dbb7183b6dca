import Verif.Props.Mem
import Verif.Props.Pobj
import Verif.Props.Decoder
import Verif.Props.Banker
import Verif.Props.Bander
import Verif.Props.MemMisc
import Verif.Props.Var
import Verif.Props.Brk
import Verif.Props.Hist
import Verif.Props.Ticker
import Verif.Props.Sim
import Verif.Props.Fio
import Verif.Props.Edit
import Verif.Props.Hex
import Verif.Props.S19
import Verif.Props.S51Alu
import Verif.Props.S51Flow
import Verif.Props.S51Reg
import Verif.Props.S51Par
import Verif.Props.S51Int
import Verif.Props.S51Timer
import Verif.Props.S51Count
import Verif.Props.S51Cycles
import Verif.Props.S51Isa
import Verif.Props.Expr
import Verif.Props.Lex
import Verif.Props.S51Xint
import Verif.Props.S51Reset
import Verif.Props.S51Idle
import Verif.I80.Inst
import Verif.I80.Table
import Verif.I80.Step
import Verif.I80.Dis
import Verif.Spec.I80
import Verif.Spec.I80Diff
import Verif.Spec.I80Asm
import Verif.Proof.I80
import Verif.Proof.I80Exec
import Verif.Proof.I80NoAc
import Verif.Props.I80
import Verif.Props.I80Bcd
import Verif.Props.I80Dis
import Verif.Props.I80Extra
import Verif.S51.Next
import Verif.Props.S51Next
import Verif.M65.Inst
import Verif.M65.Table
import Verif.M65.Step
import Verif.M65.Dis
import Verif.Spec.M65
import Verif.Spec.M65Diff
import Verif.Spec.M65Asm
import Verif.Proof.M65
import Verif.Proof.M65Exec
import Verif.Proof.M65Step
import Verif.Props.M65
import Verif.Props.M65Int
import Verif.Props.M65Dis
import Verif.S51.Serial
import Verif.Spec.Serial
import Verif.Proof.Serial
import Verif.Proof.SerialTx
import Verif.Proof.SerialTime
import Verif.Proof.SerialRx
import Verif.Props.Serial
import Verif.S51.Timer2
import Verif.Spec.Timer2
import Verif.Proof.Timer2
import Verif.Props.Timer2
import Verif.S51.Baud
import Verif.Props.Baud
import Verif.Simif.Cmds
import Verif.Simif.Model
import Verif.Spec.Simif
import Verif.Proof.Simif
import Verif.Proof.SimifRun
import Verif.Proof.SimifTx
import Verif.Proof.SimifPoll
import Verif.Props.Simif
import Verif.Z80.Inst
import Verif.Z80.Table
import Verif.Z80.DisTable
import Verif.Z80.Step
import Verif.Spec.Z80
import Verif.Spec.Z80Diff
import Verif.Spec.Z80Blk
import Verif.Proof.Z80
import Verif.Proof.Z80Exec
import Verif.Proof.Z80Ok
import Verif.Proof.Z80Step
import Verif.Proof.Z80Step2
import Verif.Proof.Z80Step3
import Verif.Proof.Z80Pc
import Verif.Proof.Z80All
import Verif.Proof.Z80Main
import Verif.Proof.Z80Io
import Verif.Proof.Z80Tick
import Verif.Proof.Z80Clk
import Verif.Proof.Z80Blk
import Verif.Props.Z80
import Verif.Props.Z80Clk
import Verif.Props.Z80Blk
import Verif.Z80.Dis
import Verif.Z80.Reset
import Verif.Spec.Z80Asm
import Verif.Proof.Z80R
import Verif.Props.Z80Bcd
import Verif.Props.Z80Dis
import Verif.Props.Z80Extra
import Verif.Props.Cmd
import Verif.Props.CmdArgs
import Verif.Props.Dump
import Verif.Props.H08
import Verif.Props.H08Dis
import Verif.Props.H08Mmu
import Verif.I48.Step
import Verif.I48.DisTable
import Verif.I48.Dis
import Verif.Spec.I48
import Verif.Spec.I48Diff
import Verif.Spec.I48Asm
import Verif.Proof.I48
import Verif.Proof.I48Exec
import Verif.Proof.I48Step
import Verif.Proof.I48Main
import Verif.Props.I48
import Verif.Props.I48Stack
import Verif.Props.I48Hw
import Verif.Props.I48Dis
import Verif.Avr.DisTable
import Verif.Avr.Step
import Verif.Avr.Dis
import Verif.Spec.Avr
import Verif.Spec.AvrDiff
import Verif.Proof.AvrSel
import Verif.Proof.AvrSel2
import Verif.Proof.AvrDis
import Verif.Proof.Avr
import Verif.Proof.AvrExec
import Verif.Proof.AvrExec2
import Verif.Proof.AvrExec3
import Verif.Props.Avr
import Verif.Props.AvrStack
import Verif.Props.AvrNum
import Verif.Props.AvrDis
import Verif.Vcd.Model
import Verif.Spec.Vcd
import Verif.Proof.Vcd
import Verif.Proof.VcdPlay
import Verif.Props.Vcd
import Verif.P15.Step
import Verif.P15.Dis
import Verif.Spec.P15
import Verif.Spec.P15Dis
import Verif.Spec.P22Dis
import Verif.Proof.P15
import Verif.Proof.P15Alu
import Verif.Proof.P22Alu
import Verif.Proof.P15Mem
import Verif.Proof.P15Ext
import Verif.Proof.P15Dis
import Verif.Proof.P22Dis
import Verif.Props.P15
import Verif.Spec.Pdk
import Verif.Spec.PdkDis
import Verif.Spec.PdkHw
import Verif.Pdk.Step
import Verif.Pdk.Insn
import Verif.Pdk.Chain
import Verif.Pdk.Logic
import Verif.Pdk.Stack
import Verif.Pdk.Sys
import Verif.Pdk.Dis
import Verif.Pdk.Hw
import Verif.Pdk.HwProofs
import Verif.Spec.Misc16
import Verif.Spec.Em
import Verif.Spec.Urisc
import Verif.Oisc.Misc16
import Verif.Oisc.Em
import Verif.Oisc.Urisc
import Verif.Spec.Pb
import Verif.Pb.Table
import Verif.Pb.Step
import Verif.Pb.Find
import Verif.Pb.Proofs
import Verif.Pb.Examples
import Verif.Spec.PbText
import Verif.Pb.Text
