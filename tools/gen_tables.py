#!/usr/bin/env python3
"""Generates lean/Verif/Model/Tables.lean: the switch statements and if-chains of /repo that only map a
number or a tag to a text. Every entry carries the source line it was read from."""
import re
R='/repo/fileid/'
def q(s): return 'b!"'+s.replace('\\','\\\\').replace('"','\\"')+'"'
def lines(f): return open(R+f,encoding='latin-1').read().split('\n')
out=[]
def emit(name,doc,ty,entries,f):
    out.append(f'/-- {doc} -/\ndef {name} : List ({ty} × Bytes) := [')
    n=len(entries)
    for i,(k,v,l) in enumerate(entries):
        out.append(f'  ({k}, {q(v)}){"," if i<n-1 else "]"} -- {f}:{l}')
    if n==0: out[-1]+=']'
    out.append('')
def cases(f,a,b,rx):
    r=[]
    for i,l in enumerate(lines(f),1):
        if a<=i<=b and not l.strip().startswith('//'):
            m=re.search(rx,l)
            if m: r.append((m.group(1),m.group(2),i))
    return r
CASE=r'case\s+(0x[0-9A-Fa-f]+|\d+)\s*:\s*(?:ans = |return )"([^"]*)"'
MAP=r'\{\s*(0x[0-9A-Fa-f]+|\d+)\s*,\s*"([^"]*)"\s*\}'
def num(es): return [(str(int(k,0)),v,l) for k,v,l in es]
e='exe/Exec.hpp'
emit('execCharacteristics','exe/Exec.hpp:114-131 `CharacteristicsMap` (a `std::map`: in key order).','Nat',num(cases(e,114,131,MAP)),e)
emit('execDllCharacteristics','exe/Exec.hpp:132-141 `DllCharacteristicsMap`.','Nat',num(cases(e,132,141,MAP)),e)
emit('execSubsystems','exe/Exec.hpp:174-190 the cases of `GetSubsystemString`.','Nat',num(cases(e,174,190,CASE)),e)
emit('execMachines','exe/Exec.hpp:192-219 the cases of `GetMachineTypeString`.','Nat',num(cases(e,192,219,CASE)),e)
m='exe/macho.hpp'
emit('machoCpuTypes','exe/macho.hpp:76-103 the cases of `cpuType2String`.','Nat',num(cases(m,76,103,CASE)),m)
def sub(a,b,name,cpu):
    emit(name,f'exe/macho.hpp:{a}-{b} the inner cases of `cpuSubType2String` for {cpu}.','Nat',num(cases(m,a,b,CASE)),m)
sub(108,122,'machoSubVAX','VAX');sub(125,130,'machoSubROMP','ROMP');sub(135,142,'machoSubNS32','NS32032, NS32332 and NS32532')
sub(145,149,'machoSubMC680','MC680x0');sub(152,173,'machoSubI386','I386');sub(176,185,'machoSubMIPS','MIPS')
sub(188,191,'machoSubHPPA','HPPA');sub(194,203,'machoSubARM','ARM');sub(211,213,'machoSubSPARC','SPARC')
sub(216,219,'machoSubI860','I860');sub(232,246,'machoSubPOWERPC','POWERPC');sub(254,257,'machoSubX8664','X86_64')
b='media/mp4/mp4.hpp'
br=[(q(k),v,l) for k,v,l in cases(b,64,126,r'brandcode == "([^"]*)"\) \{ ans = "([^"]*)"')]
emit('mp4Brands','media/mp4/mp4.hpp:64-126 the comparisons of `GetBrandName`.','Bytes',br,b)
w='document/word/word.hpp'
emit('wordVersions','document/word/word.hpp:76-94 the cases of `GetVersion_Word`.','Nat',num(cases(w,76,94,CASE)),w)
p='document/pubisher/pub.hpp'
emit('publisherVersions','document/pubisher/pub.hpp:34-46 the cases of `GetVersion_Publisher`.','Nat',num(cases(p,34,46,CASE)),p)
v='document/visio/vsd.hpp'
emit('visioVersions','document/visio/vsd.hpp:26-41 the cases of `GetVersion_Visio`.','Nat',num(cases(v,26,41,CASE)),v)
pp='document/powerpoint/ppt.hpp'
ls=lines(pp); ent=[]
for i,l in enumerate(ls,1):
    mm=re.search(r'withinCheck\(version, (\d+), 10\)',l)
    if mm:
        mm2=re.search(r'ans = "([^"]*)"',ls[i]); ent.append((mm.group(1),mm2.group(1),i))
emit('pptVersions','document/powerpoint/ppt.hpp:99-182 the `withinCheck` tests of `GetVersion_Powerpoint`, in order.','Nat',ent,pp)
z='zip/ziphelper.hpp'
def emit3(name,doc,entries,f):
    out.append(f'/-- {doc} -/\ndef {name} : List (Bytes × Bytes × Bytes) := [')
    n=len(entries)
    for i,(k,x,v,l) in enumerate(entries):
        out.append(f'  ({q(k)}, {q(x)}, {q(v)}){"," if i<n-1 else "]"} -- {f}:{l}')
    out.append('')
def chain(f,a,b,var):
    r=[];ls=lines(f);keys=[]
    for i,l in enumerate(ls,1):
        if a<=i<=b:
            ks=re.findall(var+r' == "([^"]*)"',l)
            if ks: keys=[(k,i) for k in ks]
            m=re.search(r'->Extension = "([^"]*)"',l)
            if m: x=m.group(1)
            m=re.search(r'->Name = "([^"]*)"',l)
            if m: r+=[(k,x,m.group(1),i0) for k,i0 in keys]
    return r
emit3('zipContentTypes','zip/ziphelper.hpp:153-279 the comparisons of `CheckContentType`, in order: content type, extension, name.',chain(z,153,279,'contentType'),z)
emit3('zipMimeTypes','zip/ziphelper.hpp:281-384 the comparisons of `CheckMimeType`, in order: MIME type, extension, name.',chain(z,281,384,'mimeType'),z)
mk=[]
for i,l in enumerate(lines(z),1):
    m_=re.search(r'CheckEntry\(archive, &ans, "([^"]*)", "([^"]*)", "([^"]*)"\)',l)
    if m_: mk.append((m_.group(1),m_.group(2),m_.group(3),i))
emit3('zipMarkers','zip/ziphelper.hpp:468-477 the calls of `CheckEntry` in `Detailer`, in order: entry, extension, name.',mk,z)
print('import Verif.Base\n\n/-!\n# Value-to-text tables of the program\n\nGenerated by tools/gen_tables.py; do not edit.\n-/\n\nnamespace Fileid.Tables\n')
print('\n'.join(out))
print('/-- A `switch` or if-chain that maps a value to a text: the first entry with the key decides. -/\ndef lookup {α : Type} [DecidableEq α] (t : List (α × Bytes)) (k : α) : Option Bytes :=\n  (t.find? fun e => decide (e.1 = k)).map (·.2)\n')
print('end Fileid.Tables')
