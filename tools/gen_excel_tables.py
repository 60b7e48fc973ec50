#!/usr/bin/env python3
"""Generates lean/Verif/Model/ExcelTables.lean: the switch statements of /repo/fileid/document/excel that map
a number to a text, and the dispatch of ParseRecord for BIFF8. Every entry carries its source line."""
import re
R='/repo/fileid/document/excel/'
def q(s): return 'b!"'+s.replace('\\','\\\\').replace('"','\\"')+'"'
def lines(f): return open(R+f,encoding='latin-1').read().split('\n')
CASE=r'case\s+(0x[0-9A-Fa-f]+|\d+)\s*:\s*ans = "([^"]*)"'
out=[]
def emit(name,doc,f,a,b,rx=CASE):
    es=[]; pending=''
    for i,l in enumerate(lines(f),1):
        if a<=i<=b and not l.strip().startswith('//'):
            if re.search(r'case\s+\S+\s*:\s*\{\s*$',l): pending=l.rstrip().rstrip('{'); continue  # case X: {
            m=re.search(rx,pending+l)
            if m: es.append((int(m.group(1),0),m.group(2),i))
            if m or 'case' in l: pending=''
    out.append(f'/-- {doc} -/\ndef {name} : List (Nat × Bytes) := [')
    for i,(k,v,l) in enumerate(es):
        out.append(f'  ({k}, {q(v)}){"," if i<len(es)-1 else "]"} -- document/excel/{f}:{l}')
    out.append('')
emit('recordTypes','document/excel/records/Record.hpp:19-379 the cases of `GetRecordTypeStr`.','records/Record.hpp',19,379)
emit('codePages','document/excel/records/CodePageRecord.hpp:10-168 the cases of `CPToString`.','records/CodePageRecord.hpp',10,168)
emit('countries','document/excel/records/CountryRecord.hpp:16-70 the cases of `GetCountryName`.','records/CountryRecord.hpp',16,70)
h='structures/formulas/helper.hpp'
emit('functions','document/excel/structures/formulas/helper.hpp:16-395 the cases of `GetFunctionName_FTab`.',h,16,395)
emit('commands','document/excel/structures/formulas/helper.hpp:403-806 the cases of `GetFunctionName_CeTab`.',h,403,806)
emit('biff8Classes','document/excel/records/Record.Parser.hpp:25-389 the cases of the BIFF8 `switch` in `ParseRecord`: record type and class constructed.','records/Record.Parser.hpp',25,389,r'case\s+(0x[0-9A-Fa-f]+)\s*:\s*r = \(Record\*\)\(new (\w+)Record\(')
print('import Verif.Base\n\n/-!\n# Value-to-text tables of the workbook reader\n\nGenerated by tools/gen_excel_tables.py; do not edit.\n-/\n\nnamespace Fileid.ExcelTables\n')
print('\n'.join(out))
print('end Fileid.ExcelTables')
