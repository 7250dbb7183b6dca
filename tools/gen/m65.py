#!/usr/bin/env python3
"""Writes lean/Verif/M65/Table.lean: opcode tables of mos6502.src (decode.h, mos6502cl.h,
glob.cc) as Lean text."""
import re
D='/repo/src/sims/mos6502.src/'
names={}
for m in re.finditer(r'#define\s+(\w+)\s+instruction_([0-9a-f]{2})', open(D+'decode.h').read()):
    names[int(m[2],16)]=m[1]
hdr=open(D+'mos6502cl.h').read()
def mode(t):
    m=re.fullmatch(r'(dst|rmw)?(imm8|zpgX|zpgY|zpg|absX|absY|abs|indX|indY)\(\)',t)
    return m[1] or '', '.'+m[2].replace('imm8','imm')
plain={'NOP':'nop','BRK':'brk','RTI':'rti','CLI':'cli','SEI':'sei','PHP':'php','CLC':'clc','PLP':'plp','SEc':'sec',
 'PHA':'pha','PLA':'pla','DEY':'dey','TYA':'tya','TAY':'tay','CLV':'clv','INY':'iny','CLD':'cld','INX':'inx','SED':'sed',
 'TXA':'txa','TXS':'txs','TAX':'tax','TSX':'tsx','DEX':'dex','JMPa':'jmpA','JMPi':'jmpI','JSR':'jsr','RTS':'rts'}
reg={'rY':'.y','rX':'.x','cA':'.a','cX':'.x','cY':'.y'}
def inst(n):
    if n in plain: return '.'+plain[n]
    b=re.search(r'virtual int %s\s*\(t_mem code\) \{ (.*) \}'%n, hdr)[1]
    m=re.fullmatch(r'(?:tick\((\d)\); )?return (\w+)\((.*)\);',b)
    t,f,args=m[1],m[2],m[3]
    if f=='branch':
        k=re.fullmatch(r'(!| )\(rF & (flag\w)\)',args)
        return '.branch %s %s'%(k[2], 'false' if k[1]=='!' else 'true')
    if f in('ora','And','eor','adc','lda','sbc','bit'):
        k,mm=mode(args); assert k=='' and not t
        return '.%s %s'%(f.lower(),mm)
    if f=='sta':
        k,mm=mode(args); assert k=='dst'
        return '.sta %s %s'%(t or 0,mm)
    if f=='cmp':
        r,a=args.split(', '); k,mm=mode(a); assert k=='' and not t
        return '.cmp %s %s'%(reg[r],mm)
    if f=='st':
        r,a=args.split(', '); k,mm=mode(a); assert k=='dst' and not t
        return '.st %s %s'%(reg[r],mm)
    if f=='ld':
        r,a=args.split(', '); k,mm=mode(a); assert k=='' and not t
        return '.ld %s %s'%(reg[r],mm)
    if f in('inc','dec','asl','lsr','rol','ror'):
        if args=='cA':
            assert t=='1'
            return '.rmwA .%s'%f
        k,mm=mode(args); assert k=='rmw' and not t
        return '.rmw .%s %s'%(f,mm)
    raise Exception(n+b)
o='''import Verif.M65.Inst

/-
Opcode tables of the 6502 simulator.  Written by tools/gen/m65.py from
/repo/src/sims/mos6502.src: decode.h 31-201, mos6502cl.h 202-380, glob.cc 56-232.
-/
namespace Ucsim.M65

/-- decode.h names the opcode, mos6502cl.h says what the name does.  `none`: the default of
cl_uc, which returns resNOT_DONE. -/
def table : List (Option Inst) := [
'''
o+=',\n'.join('  /- %02x -/ %s'%(i, 'some (%s)'%inst(names[i]) if i in names else 'none') for i in range(256))+']\n\n'
g=open(D+'glob.cc').read()
g=g[g.index('disass_mos6502[]'):]; g=g[:g.index('};')]
ents=re.findall(r"\{ 0x(\w\w), 0xff, '(.)', (\d), \"([^\"]*)\"",g)
o+='''/-- disass_mos6502, glob.cc 56-232: code, branch, length, mnemonic; every mask is 0xff. -/
def disTab : List (Byte × Char × Nat × String) := [
'''
o+=',\n'.join("  (0x%s, '%s', %s, \"%s\")"%e for e in ents)+']\n\nend Ucsim.M65\n'
assert len(ents)==g.count('"')//2
open('/verif/lean/Verif/M65/Table.lean','w').write(o)
print(len(names),len(ents))
