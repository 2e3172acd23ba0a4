"""Differential test of the runtime model: F64.toSingle / ofSingleBits / le against struct.pack and float comparison.
Not part of the proofs. Run from anywhere after `lake build` in /verif/lean."""
import tempfile,os
LEAN = r'''import Verif.Py.Float
open Verif Verif.Py
def main : IO Unit := do
  let inp ← IO.getStdin
  let mut go := true
  while go do
    let l ← inp.getLine
    if l.trimAscii.toString.isEmpty then go := false else
      let ws := l.trimAscii.toString.splitOn " "
      match ws with
      | ["p", n] =>
        let n := n.toNat!
        if h : n < 2^64 then
          match F64.toSingle ⟨n, h⟩ with
          | .ok b => IO.println s!"{b}"
          | .error _ => IO.println "overflow"
      | ["u", n] => IO.println s!"{F64.ofSingleBits n.toNat!}"
      | ["le", a, b] =>
        let a := a.toNat!; let b := b.toNat!
        if ha : a < 2^64 then if hb : b < 2^64 then IO.println s!"{F64.le ⟨a,ha⟩ ⟨b,hb⟩}"
      | _ => IO.println "?"
'''
SRC = os.path.join(tempfile.mkdtemp(), "t.lean")
open(SRC, "w").write(LEAN)
import struct,random,subprocess
random.seed(7)
cases=[];exp=[]
def d(n): return struct.unpack('>d',n.to_bytes(8,'big'))[0]
def rnd64():
    k=random.random()
    if k<.3: return random.getrandbits(64)
    e=random.choice([random.randint(860,940),random.randint(1140,1160),random.randint(0,2047),896,897,895,874,873,872,1150,1151])
    f=random.choice([random.getrandbits(52),0,1<<51,(1<<52)-1,random.getrandbits(23)<<29,(random.getrandbits(23)<<29)|(1<<28),((1<<23)-1)<<29|1<<28])
    return (random.getrandbits(1)<<63)|(e<<52)|f
for _ in range(6000):
    n=rnd64()
    cases.append(f"p {n}")
    try: r=str(int.from_bytes(struct.pack('>f',d(n)),'big'))
    except OverflowError: r="overflow"
    exp.append(r)
for _ in range(4000):
    b=random.choice([random.getrandbits(32),random.getrandbits(23),random.getrandbits(random.randint(1,23))|(random.getrandbits(1)<<31),0xff<<23,(0xff<<23)|random.getrandbits(23)])
    cases.append(f"u {b}")
    exp.append(str(int.from_bytes(struct.pack('>d',struct.unpack('>f',b.to_bytes(4,'big'))[0]),'big')))
for _ in range(4000):
    a=rnd64(); b=random.choice([rnd64(),a,a^(1<<63),a^1,0,1<<63])
    cases.append(f"le {a} {b}"); exp.append(str(d(a)<=d(b)).lower())
out=subprocess.run(['lake','env','lean','--run',SRC],input='\n'.join(cases)+'\n\n',capture_output=True,text=True,cwd='/verif/lean')
o=out.stdout.split('\n')
print(len(o),out.stderr[:500])
bad=[(c,e,x) for c,e,x in zip(cases,exp,o) if e!=x]
print(len(bad),bad[:10])
