#!/usr/bin/env python3
"""Writes lean/Verif/I80/Table.lean: opcode tables of i8085.src (decode.h, dcmovrr.h,
imovrr.h, i8085cl.h, glob.cc) as Lean text."""
import re
D='/repo/src/sims/i8085.src/'
names={}
for f in ['decode.h','dcmovrr.h']:
    for m in re.finditer(r'#define\s+(\w+)\s+instruction_([0-9a-f]{2})', open(D+f).read()):
        names[int(m[2],16)]=m[1]
n85={int(m[2],16):m[1] for m in re.finditer(r'#define\s+(\w+)\s+instruction_([0-9a-f]{2})', open(D+'i8085cl.h').read())}
# bodies of the MOV instructions
mov={}
for m in re.finditer(r'instruction_([0-9a-f]{2})\(t_mem code\) \{ (c\w(?:\(\))?)\.W\(r(\w)\); return resGO; \}', open(D+'imovrr.h').read()):
    mov[int(m[1],16)]=(m[2].replace('()','')[1].lower(), m[3].lower())
hdr=open(D+'i8080cl.h').read()
rp={'BC':'bc','DE':'de','HL':'hl','SP':'sp'}
def body(n):
    m=re.search(r'virtual int %s\s*\(t_mem code\) \{ (.*) \}'%n, hdr)
    return m[1] if m else None
def inst(n, op):
    b=body(n)
    if op in mov: return '.mov .%s .%s'%mov[op]
    if b is None:
        return {'HLT':'.hlt','EI':'.ei','DI':'.di','LDA_a16':'.lda','STA_a16':'.sta','LHLD_a16':'.lhld','SHLD_a16':'.shld','XCHG':'.xchg','IN_INST':'.inp','OUT_INST':'.out','XTHL':'.xthl','SPHL':'.sphl','RLC':'.rlc','RRC':'.rrc','RAL':'.ral','RAR':'.rar','DAA':'.daa','CMA':'.cma','CMC':'.cmc','STC':'.stc','JMP':'.jmp','CALL':'.call','RET':'.ret','PCHL':'.pchl'}[n]
    b=b.replace('vc.rd++; ','')
    if b=='return resGO;': return '.nop'
    m=re.fullmatch(r'return mvi8\(c(\w)(?:\(\))?\);',b)
    if m: return '.mvi .'+m[1].lower()
    m=re.fullmatch(r'return lxi16\(c(\w\w)\);',b)
    if m: return '.lxi .'+rp[m[1]]
    m=re.fullmatch(r'return (ldax|stax|dad)\(r(\w\w)\);',b)
    if m: return '.%s .%s'%(m[1],rp[m[2]])
    m=re.fullmatch(r'push2\(r(\w\w)\); return resGO;',b)
    if m: return '.pushPsw' if m[1]=='AF' else '.push .'+rp[m[1]]
    m=re.fullmatch(r'c(\w\w)\.W\(pop2\(\)\); return resGO;',b)
    if m: return '.popPsw' if m[1]=='AF' else '.pop .'+rp[m[1]]
    m=re.fullmatch(r'return (add8|sub8|ana|ora|xra)\((r\w|fetch\(\))((?:, \w+)*)\);',b)
    if m:
        src='.imm' if m[2].startswith('fetch') else '(.reg .%s)'%m[2][1].lower()
        return '.%s %s%s'%(m[1],src,m[3].replace(',',''))
    m=re.fullmatch(r'return (inr|dcr)\(c(\w)(?:\(\))?\);',b)
    if m: return '.%s .%s'%(m[1],m[2].lower())
    m=re.fullmatch(r'return (inx|dcx)\(c(\w\w)\);',b)
    if m: return '.%s .%s'%(m[1],rp[m[2]])
    m=re.fullmatch(r'return (jmp|call|ret)_if\(\s*(!?)\(?\s*rF&flag(\w)\)+;',b)
    if m: return '.%sIf flag%s %s'%(m[1],m[3],'false' if m[2] else 'true')
    if b=='return rst(code);': return '.rst'
    raise Exception((n,b))
o=[]
w=o.append
w('''import Verif.I80.Inst

/-
Opcode and tick tables of the 8080/8085 simulator.  Written by tools/gen/i80.py from
/repo/src/sims/i8085.src: decode.h 31-237, dcmovrr.h 31-100, imovrr.h 1-70, i8080cl.h
151-362, i8085cl.h 34-48, i8080.cc 79-90, glob.cc 33-221.
-/
namespace Ucsim.I80

/-- Instructions common to both processors: decode.h names the opcode, i8080cl.h says what
the name does. -/
def table : List (Option Inst) := [''')
for op in range(256):
    w('  /- %02x -/ %s%s'%(op,'some (%s)'%inst(names[op],op) if op in names else 'none',']\n' if op==255 else ','))
w('/-- Opcodes of the 8080 that have no instruction of their own, i8080.cc 79-90. -/')
w('def alias80 : List (Byte × Byte) := [')
al=[]
for m in re.finditer(r'itab\[0x(..)\]= instruction_wrapper_(..);', open(D+'i8080.cc').read()):
    al.append('(0x%s#8, 0x%s#8)'%(m[1],m[2]))
w('  '+', '.join(al)+']\n')
w('/-- Instructions of the 8085 only, i8085cl.h 34-48. -/')
w('def own85 : List (Byte × Inst) := [')
w('  '+', '.join('(0x%02x#8, .%s)'%(op,n85[op].lower()) for op in sorted(n85))+']\n')
g=open(D+'glob.cc').read()
def arr(name):
    t=re.search(r'%s\[256\]= \{(.*?)\};'%name,g,re.S)[1]
    t=re.sub(r'/\*.*?\*/','',t)
    v=[int(x,0) for x in t.replace('\n',' ').split(',') if x.strip()]
    assert len(v)==256
    return v
def put(name,v,doc):
    w('/-- %s -/'%doc)
    w('def %s : List Nat := ['%name)
    for i in range(0,256,16): w('  '+', '.join(str(x) for x in v[i:i+16])+(',' if i<240 else ']'))
    w('')
put('ptab',arr('ptab'),'glob.cc 164-181: 1 for an even number of ones (made flagP in si8085.cc 45-48).')
put('tick80',arr('tick_tab_8080'),'glob.cc 183-201')
put('tick85',arr('tick_tab_8085'),'glob.cc 203-221')
def dis(name,lean,doc):
    t=re.search(r'%s\[\]=\s*\{(.*?)\n  \};'%name,g,re.S)[1]
    w('/-- %s: code, mask, length, mnemonic (the field is_call is not given: false). -/'%doc)
    e=re.findall(r"\{ 0x(..), 0x(..), ' ', (\d), \"([^\"]*)\" \}",t)
    w('def %s : List (Byte × Byte × Nat × String) := ['%lean)
    w(',\n'.join('  (0x%s#8, 0x%s#8, %s, "%s")'%x for x in e)+']\n')
dis('disass_common','disCommon','glob.cc 33-125')
dis('disass_8080','dis80','glob.cc 127-142')
dis('disass_8085','dis85','glob.cc 144-161')
w('end Ucsim.I80')
open('/verif/lean/Verif/I80/Table.lean','w').write('\n'.join(o)+'\n')
print(len(names),len(n85),len(mov))
