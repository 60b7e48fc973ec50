import xml.etree.ElementTree as ET,re
src=open('/repo/fileid/data.xml',encoding='utf-8-sig').read()
d=ET.fromstring(src)
lines=src.split('\n')
out=[]
def q(s): 
    assert all(32<=ord(c)<127 for c in s),s
    return 'b!"%s"'%s.replace('\\','\\\\').replace('"','\\"')
for i in d.find('Items'):
    sn=i.get('shortname')
    ln=[k+1 for k,l in enumerate(lines) if 'shortname="%s"'%sn in l and '<Items' not in l]
    out.append('  ⟨%s, %s, %s, %s, %s, %s⟩'%(q(i.get('extension')),q(i.get('name')),q(i.get('version') or ''),i.get('offset') or '0',q(i.text),q(i.get('extra') or '')))
n=len(out)
s='''import Verif.Spec.Bytes

/-!
# The list of file types that the project maintains, `fileid/data.xml`

The elements `Item` of the element `Items`, in order, with the text of each as it is written in that file. (`magic.h` is
made from this file by a script; the model has the table of `magic.h`.)
-/

namespace Fileid.Spec

/-- One file type. -/
structure Described where
  extension : Bytes
  name : Bytes
  version : Bytes
  offset : Nat
  signature : Bytes
  extra : Bytes
  deriving DecidableEq

/-- The value of a hexadecimal digit. -/
def hexDigit (c : UInt8) : Option Nat :=
  if 48 ≤ c ∧ c ≤ 57 then some (c.toNat - 48)
  else if 65 ≤ c ∧ c ≤ 70 then some (c.toNat - 55)
  else if 97 ≤ c ∧ c ≤ 102 then some (c.toNat - 87)
  else none

/-- Bytes written as `0x4D,0x5A`. -/
def hexBytes : Bytes → Option Bytes
  | [48, 120, a, b] => do
    let x ← hexDigit a
    let y ← hexDigit b
    some [UInt8.ofNat (16 * x + y)]
  | 48 :: 120 :: a :: b :: 44 :: rest => do
    let x ← hexDigit a
    let y ← hexDigit b
    let bs ← hexBytes rest
    some (UInt8.ofNat (16 * x + y) :: bs)
  | _ => none

/-- The bytes by which the type is known: given in hexadecimal digits, or else as they are. -/
def Described.bytes (d : Described) : Bytes := (hexBytes d.signature).getD d.signature

/-- data.xml, the element `Items`. -/
def described : List Described := [
%s]

end Fileid.Spec
'''%(',\n'.join(out))
open('/verif/lean/Verif/Spec/Described.lean','w').write(s)
print(n)
