"""Runs the cases of /repo/src/test.cpp on the model (not a proof: a check of the reading of the C++ into the model).

The cases (check_type, check_error, ...) are read from the text of test.cpp and run by `Exec.exec` (lean/Verif/Proofs/Exec.lean), which `exec_step` proves to
give outcomes of the model of the C interface. As in test.cpp the messages of expected errors are printed but not compared (test.cpp says they are in flux).
Usage, after `lake build`: python3 tools/conformance.py
"""
import os,subprocess,tempfile
import re
src=open('/repo/src/test.cpp',encoding='utf-8').read()
# tokenise C++ pieces
def lit(s,i):
    """parse one or more adjacent string literals at i; return bytes,newi or None"""
    out=b'';got=False
    while True:
        j=i
        while j<len(s) and s[j] in ' \n\t': j+=1
        if s.startswith('R"(',j):
            k=s.index(')"',j); out+=s[j+3:k].encode(); i=k+2; got=True
        elif s.startswith('"',j):
            k=j+1
            while s[k]!='"':
                if s[k]=='\\':
                    m=re.match(r'\\x([0-9a-fA-F]+)',s[k:])
                    if m: out+=bytes([int(m[1],16)]); k+=len(m[0]); continue
                    m=re.match(r'\\([0-7]{1,3})',s[k:])
                    if m: out+=bytes([int(m[1],8)]); k+=len(m[0]); continue
                    out+={'n':b'\n','"':b'"','\\':b'\\','t':b'\t'}[s[k+1]]; k+=2; continue
                out+=s[k].encode(); k+=1
            i=k+1; got=True
        elif s.startswith('//',j): i=s.index('\n',j)
        else: return (out,i) if got else None
consts={}
for n in ['tokenHexAbi','testHexAbi','testAbi','transactionAbi']:
    m=re.search(r'const char '+n+r'\[\] = ',src)
    consts[n]=lit(src,m.end())[0]
def args(s,i):
    """parse args after '(' at i-1, return list,newi"""
    a=[]
    while True:
        while s[i] in ' \n\t': i+=1
        if s.startswith('//',i): i=s.index('\n',i); continue
        if s[i]==')': return a,i+1
        if s[i]==',': i+=1; continue
        l=lit(s,i)
        if l: a.append(l[0]); i=l[1]; continue
        m=re.match(r'string_to_hex\(("[^"]*")\)\.c_str\(\)',s[i:])
        if m:
            b=m[1][1:-1].encode(); a.append((bytes([len(b)])+b).hex().upper().encode()); i+=len(m[0]); continue
        m=re.match(r'[A-Za-z_0-9]+',s[i:])
        a.append(m[0]); i+=len(m[0])
body=src[src.index('check_error(context, "no data"'):src.index('auto testWith')]
tw=src[src.index('auto testWith'):src.index('testWith(testAbiName);')]
body=re.sub(r'^ *//[^\n]*$','',body,flags=re.M)
CON={'0':'0','8':'8','token':'(nm "eosio.token")','testAbiName':'(nm "test.abi")','testHexAbiName':'(nm "test.hex")'}
def L(b): return '(hx "'+b.hex()+'")'
def call(name,a):
    a=a[1:]
    k=CON[a[0]]
    return {'abieos_set_abi_hex':'.setAbiHex','abieos_set_abi':'.setAbi','abieos_hex_to_json':'.hexToJson','abieos_json_to_bin':'.jsonToBin','abieos_json_to_bin_reorderable':'.jsonToBinReorderable'}[name]+' '+k+' '+' '.join(f'(some {L(x)})' for x in a[1:])
out=[]
def scan(body,con=None):
    i=0
    pat=re.compile(r'check_type\(|check_error\(context, |abieos_\w+\(|check\(abieos_bin_to_json\(')
    while True:
        m=pat.search(body,i)
        if not m: break
        t=m[0]
        if t.startswith('check_type'):
            a,i=args(body,m.end())
            k=CON[con or a[1]]
            e=a[4] if len(a)>4 else a[3]
            o='false' if len(a)>5 and a[5]=='false' else 'true'
            out.append(f'.type {k} {L(a[2])} {L(a[3])} {L(e)} {o}')
        elif t.startswith('check_error'):
            msg,j=lit(body,m.end())
            m2=re.compile(r'(abieos_\w+)\(').search(body,j)
            a,i=args(body,m2.end())
            out.append(f'.err {L(msg)} ({call(m2[1],a)})')
        elif t.startswith('check(abieos_bin_to_json('):
            a,j=args(body,m.end())
            m2=re.compile(r'std::string\(').search(body,j)
            e,i=lit(body,m2.end())
            n=int(a[4]); out.append(f'.bin {L(a[2])} {L(a[3][:n])} {L(e)}')
        else:
            a,i=args(body,m.end())
            out.append(f'.ok ({call(m[0][:-1],a)})')
scan(body)
for c in ['testAbiName','testHexAbiName']: scan(tw,c)
HEAD='''import Verif.Props.Wire
import Verif.Proofs.Exec
open Abieos
def hexv (c : Char) : Nat := if c.isDigit then c.toNat - 48 else c.toNat - 87
partial def hxl : List Char → Bytes
  | a :: b :: l => UInt8.ofNat (hexv a * 16 + hexv b) :: hxl l
  | _ => []
def hx (s : String) : Bytes := hxl s.toList
def nm (s : String) : Nat := stringToName (str s)
inductive Case
  | type (k : Nat) (t d e : Bytes) (ord : Bool)
  | err (m : Bytes) (q : Call)
  | bin (t d e : Bytes)
  | ok (q : Call)
'''
TAIL='''def bs (s : Bytes) : String := (String.fromUTF8? ⟨s.toArray⟩).getD s!"{s}"
def fl : Floats :=
  ⟨fun s => [("0.0", 0), ("0.125", 0x3e000000), ("-0.125", 0xbe000000)].lookup (bs s),
   fun s => [("0.0", 0), ("0.125", 0x3fc0000000000000), ("-0.125", 0xbfc0000000000000)].lookup (bs s)⟩
def env : Env := libEnv fl
def call (c : Ctx) (q : Call) : IO (Ctx × Ret) :=
  match Exec.exec env (some c) q with
  | some (.done (some c') r) => pure (c', r)
  | _ => throw (IO.userError "undefined")
def bad : Ret → Bool
  | .bool b => !b
  | .str none => true
  | _ => false
def ok (c : Ctx) (q : Call) : IO (Ctx × Ret) := do
  let (c, r) ← call c q
  if bad r then throw (IO.userError s!"failed: {bs c.lastError}")
  pure (c, r)
def strOf : Ret → Bytes
  | .str (some s) => s
  | _ => []
def run (c : Ctx) : Case → IO Ctx
  | .type k t d e ord => do
    let (c, _) ← ok c (.jsonToBinReorderable k (some t) (some d))
    let (c, h) ← ok c .getBinHex
    let mut c := c
    if ord then
      let (c1, _) ← ok c (.jsonToBin k (some t) (some d))
      let (c2, h2) ← ok c1 .getBinHex
      c := c2
      if strOf h ≠ strOf h2 then throw (IO.userError "ordered and reorderable differ")
    let (c3, r) ← ok c (.hexToJson k (some t) (some (strOf h)))
    if strOf r ≠ e then throw (IO.userError s!"mismatch: {bs (strOf r)} for {bs e}")
    pure c3
  | .err m q => do
    let (c, r) ← call c q
    if bad r then IO.println s!"{bs c.lastError}    [{bs m}]"; pure c
    else throw (IO.userError s!"no error {bs m}")
  | .bin t d e => do
    let (c, r) ← ok c (.binToJson 0 (some t) (some d))
    if strOf r ≠ e then throw (IO.userError s!"mismatch: {bs (strOf r)} for {bs e}")
    pure c
  | .ok q => do
    let (c, _) ← ok c q
    pure c
def main : IO Unit := do
  let mut c := Ctx.init
  for q in [Call.setAbi 0 (some transactionAbi), .setAbiHex (nm "eosio.token") (some tokenHexAbi), .setAbi (nm "test.abi") (some testAbi), .setAbiHex (nm "test.hex") (some testHexAbi)] do
    (c, _) ← ok c q
  let mut n := 0
  let mut f := 0
  for x in cases do
    try c ← run c x
    catch e => IO.println s!"CASE {n}: {e}"; f := f + 1
    n := n + 1
  IO.println s!"{n} cases, {f} wrong"
'''
h=HEAD
for n,b in consts.items(): h+=f'def {n} : Bytes := {L(b)}\n'
h+='def cases : List Case := [\n  '+',\n  '.join(out)+']\n'+TAIL
with tempfile.TemporaryDirectory() as d:
    p=os.path.join(d,'Conf.lean'); open(p,'w').write(h)
    lean=os.path.join(os.path.dirname(os.path.dirname(os.path.abspath(__file__))),'lean')
    subprocess.run(['lake','env','lean','--run',p],cwd=lean,check=True)
