#!/usr/bin/env python3
"""Reads the switches of /repo/src/sims/z80.src (exec_inst, inst_*) and writes
lean/Verif/Z80/Table.lean: for every code the body the C++ code runs for it.
Every body must match one of the patterns below, else the script stops."""
import re, sys
D = '/repo/src/sims/z80.src/'
def src(f):
    t = open(D + f).read()
    t = re.sub(r'/\*.*?\*/', '', t, flags=re.S)
    t = re.sub(r'//[^\n]*', '', t)
    return t
def func(t, name):
    m = re.search(r'cl_z80::\s*' + name + r'\s*\([^)]*\)\s*\{', t)
    if not m: sys.exit('no function ' + name)
    i = m.end(); d = 1
    while d:
        c = t[i]
        d += c == '{'; d -= c == '}'; i += 1
    return t[m.end():i-1], t.count('\n', 0, m.start()) + 1
def cases(body, var):
    """code -> text from its label up to the break/return that ends it"""
    m = re.search(r'switch\s*\(\s*' + re.escape(var) + r'\s*\)\s*\{', body)
    i = m.end(); d = 1; j = i
    while d:
        c = body[j]
        d += c == '{'; d -= c == '}'; j += 1
    t = body[i:j-1]
    out = {}
    toks = re.split(r'(case\s+[^:]+:|default\s*:)', t)
    pend = []; order = []
    for k in range(1, len(toks), 2):
        lab = toks[k]; txt = toks[k+1]
        pend.append(lab)
        if txt.strip() == '': continue
        if not re.search(r'break\s*;|return', txt): sys.exit('falls through: ' + lab)
        for l in pend:
            if l.startswith('case'):
                n = int(re.sub(r'case\s+|:', '', l).strip(), 0)
                if n in out: sys.exit('twice %x' % n)
                out[n] = txt
        pend = []
    return out
def norm(t):
    t = re.sub(r'vc\.\w+\s*(\+\+|\+=\s*\d+)\s*;', '', t)
    t = re.sub(r'\s+', '', t)
    t = t.replace('break;', ';').replace('return(resGO);', ';').replace('returnresGO;', ';')
    t = re.sub(r'unsignedchar\w+;|unsignedshorttw;|t_addraddr;', '', t)
    t = t.replace('{', '').replace('}', '') if not t.startswith('if') and 'else' not in t and 'if(' not in t else t
    t = re.sub(r';+', ';', t).strip(';')
    return t
R8 = {'regs.raf.A': '.a', 'regs.bc.h': '.b', 'regs.bc.l': '.c', 'regs.de.h': '.d', 'regs.de.l': '.e',
      'regs.hl.h': '.h', 'regs.hl.l': '.l', 'regs_iX_h': '.xh', 'regs_iX_l': '.xl'}
RP = {'regs.BC': '.bc', 'regs.DE': '.de', 'regs.HL': '.hl', 'regs.SP': '.sp', 'regs_IX_OR_IY': '.xx'}
FL = {'BIT_Z': 'bitZ', 'BIT_C': 'bitC', 'BIT_P': 'bitP', 'BIT_S': 'bitS'}
r8 = '(' + '|'.join(re.escape(x) for x in R8) + ')'
rp = '(' + '|'.join(re.escape(x) for x in RP) + ')'
XD = r'get1\(add_u16_disp\(regs_IX_OR_IY,fetch\(\)\)\)'
PORT = r'\(type->type==CPU_Z80N\)\?regs\.BC:regs\.bc\.l'
CC = r'if\(\(?(!?)\(?regs\.raf\.F&(BIT_\w)\)?\)?\)?'
alu = {'add_A': 'add', 'adc_A': 'adc', 'sub_A': 'sub', 'sbc_A': 'sbc', 'and_A': 'and', 'xor_A': 'xor', 'or_A': 'or', 'cp': 'cp'}
rot = ['rlc', 'rrc', 'rl', 'rr', 'sla', 'sra', 'slia', 'srl']
def cc(m): return '%s %s' % (FL[m.group(2)], 'false' if m.group(1) else 'true')
P = []
def p(rx, f): P.append((re.compile('^' + rx + '$'), f))
p('', lambda m: '.nop')
p('return\\(resHALT\\)', lambda m: '.halt')
p(r8 + '=' + r8, lambda m: f'.ld (.r {R8[m[1]]}) (.r {R8[m[2]]})')
p(r8 + r'=fetch1?\(\)', lambda m: f'.ld (.r {R8[m[1]]}) .imm')
p(r8 + r'=get1\(regs\.HL\)', lambda m: f'.ld (.r {R8[m[1]]}) .m')
p(r8 + '=' + XD, lambda m: f'.ld (.r {R8[m[1]]}) .xd')
p(r'store1\(regs\.HL,' + r8 + r'\)', lambda m: f'.ld .m (.r {R8[m[1]]})')
p(r'store1\(regs\.HL,fetch\(\)\)', lambda m: '.ld .m .imm')
p(r'store1\(add_u16_disp\(regs_IX_OR_IY,fetch\(\)\),' + r8 + r'\)', lambda m: f'.ld .xd (.r {R8[m[1]]})')
p(r'tw=add_u16_disp\(regs_IX_OR_IY,fetch\(\)\);store1\(tw,fetch\(\)\)', lambda m: '.ld .xd .imm')
p(rp + r'=fetch2\(\)', lambda m: f'.ld16 {RP[m[1]]}')
p(r'store1\(' + rp + r',regs\.raf\.A\)', lambda m: f'.ldMA {RP[m[1]]}')
p(r'regs\.raf\.A=get1\(' + rp + r'\)', lambda m: f'.ldAM {RP[m[1]]}')
p(r'tw=fetch2\(\);store2\(tw,' + rp + r'\)', lambda m: f'.stRP {RP[m[1]]}')
p(r'tw=fetch2\(\);' + rp + r'=get2\(tw\)', lambda m: f'.ldRP {RP[m[1]]}')
p(r'tw=fetch2\(\);store1\(tw,regs\.raf\.A\)', lambda m: '.stA')
p(r'regs\.raf\.A=get1\(fetch2\(\)\)', lambda m: '.ldA')
p(r'regs\.SP=' + rp, lambda m: f'.ldSP {RP[m[1]]}')
p(r'\+\+' + rp, lambda m: f'.inc16 {RP[m[1]]}')
p(r'--' + rp, lambda m: f'.dec16 {RP[m[1]]}')
for o in ('inc', 'dec'):
    p(o + r'\(' + r8 + r'\)', lambda m, o=o: f'.{o}8 (.r {R8[m[1]]})')
    p(r't=get1\(regs\.HL\);' + o + r'\(t\);store1\(regs\.HL,t\)', lambda m, o=o: f'.{o}8 .m')
    p(r'unsignedchart=get1\(regs\.HL\);' + o + r'\(t\);store1\(regs\.HL,t\)', lambda m, o=o: f'.{o}8 .m')
    p(r'addr=add_u16_disp\(regs_IX_OR_IY,fetch\(\)\);tmp=get1\(addr\);' + o + r'\(tmp\);store1\(addr,tmp\)', lambda m, o=o: f'.{o}8 .xd')
p(r'add_(HL|IX)_Word\(' + rp + r'\)', lambda m: f'.add16 {dict(HL=".hl", IX=".xx")[m[1]]} {RP[m[2]]}')
p(r'(adc|sbc)_HL_wordreg\(' + rp + r'\)', lambda m: f'.{m[1]}HL {RP[m[2]]}')
for k, o in alu.items():
    p(k + r'_bytereg\(' + r8 + r'\)', lambda m, o=o: f'.alu .{o} (.r {R8[m[1]]})')
    p(r'(\w+)=get1\(regs\.HL\);' + k + r'_bytereg\(\1\)', lambda m, o=o: f'.alu .{o} .m')
    p(r'(\w+)=fetch\(\);' + k + r'_bytereg\(\1\)', lambda m, o=o: f'.alu .{o} .imm')
    if k in ('and_A', 'xor_A', 'or_A'):
        p(k + r'_bytereg\(fetch\(\)\)', lambda m, o=o: f'.alu .{o} .imm')
    p(r'(\w+)=' + XD + ';' + k + r'_bytereg\(\1\)', lambda m, o=o: f'.alu .{o} .xd')
    p(r'addr=add_u16_disp\(regs_IX_OR_IY,fetch\(\)\);(\w+)=get1\(addr\);' + k + r'_bytereg\(\1\)', lambda m, o=o: f'.alu .{o} .xd')
p(r'PC\+=j', lambda m: '.jr')
p(CC + r'\{PC\+=j;cond_true=true;\}', lambda m: f'.jrIf {cc(m)}')
p(r'PC=fetch2\(\)', lambda m: '.jp')
p(CC + r'\{PC=fetch2\(\);\}else\{fetch2\(\);\}', lambda m: f'.jpIf {cc(m)}')
p(r'PC=' + rp, lambda m: f'.jpRP {RP[m[1]]}')
p(r'push2\(PC\+2\);PC=fetch2\(\)', lambda m: '.call')
p(CC + r'\{push2\(PC\+2\);PC=fetch2\(\);cond_true=true;\}else\{fetch2\(\);\}', lambda m: f'.callIf {cc(m)}')
p(r'pop2\(PC\)', lambda m: '.ret')
p(CC + r'\{pop2\(PC\);cond_true=true;\}', lambda m: f'.retIf {cc(m)}')
p(r'push2\(PC\);PC=(0x\w+)(;switch.*)?', lambda m: f'.rst {int(m[1], 16):#04x}#16')
p(r'push2\(' + rp + r'\)', lambda m: f'.push {RP[m[1]]}')
p(r'push1\(regs\.raf\.A\);push1\(regs\.raf\.F\)', lambda m: '.pushAF')
p(rp + r'=get2\(regs\.SP\);regs\.SP\+=2', lambda m: f'.pop {RP[m[1]]}')
p(r'regs\.raf\.F=get1\(regs\.SP\+\+\);regs\.raf\.A=get1\(regs\.SP\+\+\)', lambda m: '.popAF')
p(r'(?:u16_t)?tempw(?:;tempw)?=' + rp + r';\1=get2\(regs\.SP\);store2\(regs\.SP,tempw\)', lambda m: f'.exSP {RP[m[1]]}')
p(r'tempw=regs\.DE;regs\.DE=regs\.HL;regs\.HL=tempw', lambda m: '.exDEHL')
p(r'tmp=regs\.ralt_af\.aA;regs\.ralt_af\.aA=regs\.raf\.A;regs\.raf\.A=tmp;tmp=regs\.ralt_af\.aF;regs\.ralt_af\.aF=regs\.raf\.F;regs\.raf\.F=tmp', lambda m: '.exAF')
for o in rot:
    p(o + r'_byte\(' + r8 + r'\)', lambda m, o=o: f'.rot .{o} (.r {R8[m[1]]})')
    p(r'tmp=get1\(regs\.HL\);' + o + r'_byte\(tmp\);store1\(regs\.HL,tmp\)', lambda m, o=o: f'.rot .{o} .m')
# ED
p(r8 + r'=inputs->read\(' + PORT + r'\);regs\.raf\.F&=~\(BIT_N\|BIT_P\);if\(parity\(\1\)\)regs\.raf\.F\|=BIT_P', lambda m: f'.inC {R8[m[1]]}')
p(r'\{?u8_tx=inputs->read\(' + PORT + r'\);regs\.raf\.F&=~\(BIT_N\|BIT_P\);if\(parity\(x\)\)regs\.raf\.F\|=BIT_P;?\}?', lambda m: '.inF')
p(r'outputs->write\(' + PORT + r',' + r8 + r'\)', lambda m: f'.outC {R8[m[1]]}')
p(r'outputs->write\(' + PORT + r',0\)', lambda m: '.out0')
p(r'imode=(\d)', lambda m: f'.im {m[1]}')
p(r'regs\.iv=regs\.raf\.A', lambda m: '.ldIA')
p(r'regs\.R=regs\.raf\.A', lambda m: '.ldRA')
p(r'regs\.raf\.A=regs\.(iv|R);SET_S\(regs\.\1\);SET_Z\(regs\.\1\);regs\.raf\.F&=~\(BIT_A\|BIT_N\|BIT_P\);if\(IFF2\)regs\.raf\.F\|=BIT_P', lambda m: dict(iv='.ldAI', R='.ldAR')[m[1]])
p(r'pop2\(PC\);IFF1=IFF2;IFF2=false', lambda m: '.retN')
p(r'regs\.raf\.F&=~\(BIT_ALL\);if\(regs\.raf\.A!=0\)regs\.raf\.F\|=BIT_C;if\(regs\.raf\.A==0x80\)regs\.raf\.F\|=BIT_P;if\(\(regs\.raf\.A&0x0F\)!=0\)regs\.raf\.F\|=BIT_A;regs\.raf\.A=0-regs\.raf\.A;regs\.raf\.F\|=BIT_N;if\(regs\.raf\.A==0\)regs\.raf\.F\|=BIT_Z;if\(regs\.raf\.A&0x80\)regs\.raf\.F\|=BIT_S', lambda m: '.neg')
p(r'ubtmp=get1\(regs\.HL\);store1\(regs\.HL,\(ubtmp>>4\)\|\(regs\.raf\.A<<4\)\);regs\.raf\.A=\(regs\.raf\.A&0xf0\)\|\(ubtmp&0x0f\)', lambda m: '.rrd')
p(r'ubtmp=get1\(regs\.HL\);store1\(regs\.HL,\(ubtmp<<4\)\|\(regs\.raf\.A&0x0f\)\);regs\.raf\.A=\(regs\.raf\.A&0xf0\)\|\(ubtmp>>4\)', lambda m: '.rld')
def tr(what, code, t):
    n = norm(t)
    for rx, f in P:
        m = rx.match(n)
        if m: return f(m)
    sys.exit('%s %02x: %r' % (what, code, n))

I, CB, ED, XD_, XC, Z = map(src, ('inst.cc', 'inst_cb.cc', 'inst_ed.cc', 'inst_xd.cc', 'inst_xxcb.cc', 'z80.cc'))
# --- unprefixed
body, _ = func(Z, 'exec_inst')
disp = cases(body, 'code')
t00 = {}
single = {'rlca': '.rlca', 'rrca': '.rrca', 'rla': '.rla', 'rra': '.rra', 'daa': '.daa', 'cpl': '.cpl', 'scf': '.scf', 'ccf': '.ccf',
          'halt': '.halt', 'djnz': '.djnz', 'exx': '.exx', 'di': '.di', 'ei': '.ei', 'in': '.inA', 'out': '.outA', 'nop': '.nop'}
cache = {}
for c in range(256):
    m = re.match(r'\s*res=\s*\(inst_(\w+)\((\w*)\)\);', disp[c])
    f = m[1]
    if f in ('cb', 'dd', 'ed', 'fd'):
        t00[c] = '.prefix'
    elif f in single:
        t00[c] = single[f]
    else:
        if f not in cache: cache[f] = cases(func(I, 'inst_' + f)[0], 'code')
        t00[c] = tr(f, c, cache[f][c]) if c in cache[f] else '.inv'
# --- cb
body, _ = func(CB, 'inst_cb')
disp = cases(body, 'code'); tcb = {}
for c in range(256):
    f = re.match(r'\s*return\s*\(inst_cb_(\w+)\(code\)\);', disp[c])[1]
    if f in ('bit', 'res', 'set'):
        b, _ = func(CB, 'inst_cb_' + f)
        k = cases(b, 'code & 7' if f == 'bit' else 'code & 0x7')[c & 7]
        n = norm(k)
        n = n.replace('(', '').replace(')', '')
        # operand
        nb = (c >> 3) & 7
        if f == 'bit':
            m = re.match(r'^bit_byte' + r8 + ',bit_bitnum$', n)
            o = f'(.r {R8[m[1]]})' if m else ('.m' if n == 'tmp=get1regs.HL;bit_bytetmp,bit_bitnum;store1regs.HL,tmp' else sys.exit(n))
        else:
            op = '&=~1<<bit_bitnum' if f == 'res' else '|=1<<bit_bitnum'
            m = re.match('^' + r8 + re.escape(op) + '$', n)
            o = f'(.r {R8[m[1]]})' if m else ('.m' if n == 'tmp=get1regs.HL;tmp' + op + ';store1regs.HL,tmp' else sys.exit(n))
        tcb[c] = f'.{f} {nb} {o}'
    else:
        t = cases(func(CB, 'inst_cb_' + f)[0], 'code')
        tcb[c] = tr('cb ' + f, c, t[c])
# --- dd, fd
body, _ = func(XD_, 'inst_Xd')
body = body[body.index('switch (code)'):]
disp = cases(body, 'code'); txd = {}
for c in range(256):
    if c not in disp: txd[c] = '.inv'; continue
    m = re.match(r'\s*return\s*\(inst_Xd(_?\w*)\((\w*)\)\);', disp[c])
    if m and m[1] == 'cb': txd[c] = '.prefix'
    elif m:
        t = cases(func(XD_, 'inst_Xd' + m[1])[0], 'code')
        txd[c] = tr('xd' + m[1], c, t[c]) if c in t else '.inv'
    else:
        txd[c] = tr('xd', c, disp[c])
# --- ddcb, fdcb
body, _ = func(XC, 'inst_XXcb')
disp = cases(body, 'code'); txc = {}
for c in range(256):
    if c not in disp: txc[c] = '.inv'; continue
    f = re.match(r'\s*return\s*\(inst_XXcb_(\w+)\(code\)\);', disp[c])[1]
    b, _ = func(XC, 'inst_XXcb_' + f)
    if f == 'bit':
        txc[c] = f'.xbit {(c >> 3) & 7}'; continue
    v = 'code' if f in rot else 'code & 0x7'
    k = c if f in rot else c & 7
    n = norm(cases(b, v)[k])
    if n == '': o = 'none'
    else:
        m = re.match('^' + r8 + '=tmp$', n); o = f'(some {R8[m[1]]})'
    pre = re.sub(r'\s+', '', b[:b.index('switch')])
    want = 'addr=add_u16_disp(regs_IX_OR_IY,n_offset);tmp=get1(addr);'
    assert want in pre
    if f in rot:
        assert want + f + '_byte(tmp);' in pre
        txc[c] = f'.xrot .{f} {o}'
    else:
        assert want + ('tmp&=~(1<<bit_bitnum);' if f == 'res' else 'tmp|=(1<<bit_bitnum);') in pre
        txc[c] = f'.x{f} {(c >> 3) & 7} {o}'
    assert re.sub(r'\s+', '', b).endswith('store1(addr,tmp);vc.wr++;return(resGO);'), f
# --- ed (CPU_Z80: codes below 0x40 and the Z180 ones are invalid)
body, _ = func(ED, 'inst_ed_')
body = body[body.rindex('switch(code)'):]
t = cases(body, 'code'); ted = {}
blk = {0xa0: 'ldi', 0xa1: 'cpi', 0xa2: 'ini', 0xa3: 'outi', 0xa8: 'ldd', 0xa9: 'cpd', 0xaa: 'ind', 0xab: 'outd',
       0xb0: 'ldir', 0xb1: 'cpir', 0xb2: 'inir', 0xb3: 'otir', 0xb8: 'lddr', 0xb9: 'cpdr', 0xba: 'indr', 0xbb: 'otdr'}
for c in range(256):
    if c < 0x40 or c not in t: ted[c] = '.inv'
    elif c in blk: ted[c] = '.' + blk[c]
    elif re.sub(r'\s+', '', t[c]).startswith('return(resINV_INST)') or 'CPU_Z180' in t[c]: ted[c] = '.inv'
    else: ted[c] = tr('ed', c, t[c])
# --- ticks
G = src('glob.cc')
def ttab(n):
    m = re.search(r'u16_t z80_ttab_' + n + r'\[256\]=\s*\{(.*?)\};', G, re.S)
    l = re.findall(r'T\((\d+),(\d+)\)|(\d+)', m[1])
    r = [int(a) * 256 + int(b) if a else int(x) for a, b, x in l]
    assert len(r) == 256
    return r
# --- disassembler tables
def dtab(n):
    m = re.search(r'struct dis_entry (?:disass_z80' + n + r'|DISASS_NAME\(' + n + r'\))\[\]=\s*\{(.*?)\n\s*\{\s*0,\s*0,\s*0,\s*0,\s*NULL', G, re.S)
    l = re.findall(r"\{\s*(0x\w+),\s*(0x\w+),\s*'(.)',\s*(\d+),\s*\"([^\"]*)\"\s*(?:,\s*(true|false))?\s*\}", m[1])
    assert len(l) == m[1].count('{'), n
    return l
o = []
w = o.append
w('''import Verif.Z80.Inst

/-
Written by tools/mkz80.py from the switches and tables of /repo/src/sims/z80.src; every
row is one case.
-/
namespace Ucsim.Z80
''')
def tab(name, cite, t):
    w(f'/-- {cite} -/'); w(f'def {name} : Array Inst := #[')
    w(',\n'.join('  ' + ', '.join(t[c] for c in range(r, r + 4)) for r in range(0, 256, 4)) + ']\n')
tab('tab00', 'cl_z80::exec_inst z80.cc 655-833 and the functions of inst.cc it calls; CB, DD, ED, FD: prefix', t00)
tab('tabCB', 'cl_z80::inst_cb and the functions it calls, inst_cb.cc', tcb)
tab('tabXD', 'cl_z80::inst_dd, inst_fd: inst_xd.cc; CB: prefix', txd)
tab('tabXC', 'cl_z80::inst_ddcb, inst_fdcb: inst_xxcb.cc', txc)
tab('tabED', 'cl_z80::inst_ed_ for CPU_Z80, inst_ed.cc', ted)
for n in ('00', 'ed', 'cb', 'dd', 'fd', 'ddcb', 'fdcb'):
    l = ttab(n)
    w(f'/-- z80_ttab_{n}, glob.cc 1316-1473; T(a,b) is a*256+b -/'); w(f'def ttab{n.capitalize()} : Array Nat := #[')
    w(',\n'.join('  ' + ', '.join(str(x) for x in l[r:r + 16]) for r in range(0, 256, 16)) + ']\n')
w('end Ucsim.Z80')
open('/verif/lean/Verif/Z80/Table.lean', 'w').write('\n'.join(o) + '\n')
o = []; w = o.append
w('''/-
Written by tools/mkz80.py: the disassembler's tables of /repo/src/sims/z80.src/glob.cc.
-/
namespace Ucsim.Z80

/-- struct dis_entry, stypes.h: the mask is 0xff everywhere -/
structure DisEntry where
  code : BitVec 8
  branch : Char
  length : Nat
  mnemonic : String
  isCall : Bool
''')
for n, nm in (('', '00'), ('_cb', 'Cb'), ('_ed', 'Ed'), ('_dd', 'Dd'), ('_fd', 'Fd'), ('_ddcb', 'Ddcb'), ('_fdcb', 'Fdcb')):
    l = dtab(n)
    w(f'/-- disass_z80{n}[], glob.cc -/'); w(f'def dis{nm} : List DisEntry := [')
    rows = []
    for c, k, br, ln, mn, ic in l:
        assert int(k, 16) == 0xff, (n, c)
        rows.append('  ⟨%#04x#8, %s, %s, "%s", %s⟩' % (int(c, 16), "'%s'" % br, ln, mn, ic or 'false'))
    w(',\n'.join(rows) + ']\n')
w('end Ucsim.Z80')
open('/verif/lean/Verif/Z80/DisTable.lean', 'w').write('\n'.join(o) + '\n')
