"""Differential test of the runtime model: int(), TimeValue.parse, ByteSizeValue.parse and re.match against CPython.
Not part of the proofs. Run from anywhere after `lake build` in /verif/lean."""
import tempfile,os
LEAN = r'''import Verif.Props.TimeValue
open Verif Verif.Py
def dec (w : String) : String := String.ofList ((w.splitOn ",").filterMap fun x => x.toNat?.map Char.ofNat)
def main : IO Unit := do
  let inp ← IO.getStdin
  let mut go := true
  while go do
    let l ← inp.getLine
    if l.trimAscii.toString.isEmpty then go := false else
      let ws := l.trimAscii.toString.splitOn " "
      match ws with
      | ["i", n] =>
          match intOfStr asciiUnicode (dec n) with
          | .ok b => IO.println s!"{b}"
          | .error _ => IO.println "err"
      | ["t", n] =>
          match TimeValue.parse asciiUnicode (dec n) with
          | .ok b => IO.println s!"{b.duration} {b.time_unit.value}"
          | .error _ => IO.println "err"
      | ["b", n] => 
          match ByteSizeValue.parse asciiUnicode (dec n) with
          | .ok b => IO.println s!"{b.size} {b.unit.value}"
          | .error _ => IO.println "err"
      | ["m", n] =>
          match matchValue asciiUnicode (dec n) with
          | some (a,b) => IO.println s!"{a}|{b}"
          | none => IO.println "err"
      | _ => IO.println "?"
'''
SRC = os.path.join(tempfile.mkdtemp(), "t.lean")
open(SRC, "w").write(LEAN)
import random,subprocess,re
random.seed(9)
# value classes transcribed: run the repo's own pure functions by text extraction
TU={"nanos":0,"micros":1,"ms":2,"s":3,"m":4,"h":5,"d":6}
BU={"b":0,"kb":1,"mb":2,"gb":3,"tb":4,"pb":5}
def time(v):
    m=re.match(r"(?P<d>\d+)\s*(?P<u>\w+)",v.lower())
    if not m: return "err"
    n=int(m['d'])
    return f"{n} {TU[m['u']]}" if m['u'] in TU else "err"
def size(v):
    m=re.match(r"(?P<d>\d+)\s*(?P<u>\w+)",v.lower())
    if not m: return "err"
    n=int(m['d']); u=m['u']
    if not u.endswith('b'): u+='b'
    return f"{n} {BU[u]}" if u in BU else "err"
def i(v):
    try: return str(int(v))
    except ValueError: return "err"
def mm(v):
    m=re.match(r"(\d+)\s*(\w+)",v)
    return f"{m[1]}|{m[2]}" if m else "err"
alpha="0123456789"*2+"  \t\x1c\x0b_+-"+"nanosmicrodhkgtpbKMSB"+".!"
def g():
    if random.random()<.5:
        return "".join(random.choice("0123456789") for _ in range(random.randint(0,4)))+random.choice([""," ","\t ","\x1d"])+random.choice(list(TU)+list(BU)+["k","G","MS","Nanos","x"])+random.choice([""," x","!","_","7"])
    return "".join(random.choice(alpha) for _ in range(random.randint(0,7)))
def gi():
    return random.choice([""," ","\t","\x1c"])+random.choice(["","-","+","--"])+"".join(random.choice("0123456789_") for _ in range(random.randint(0,6)))+random.choice([""," ","\x1f","\n"])
cases=[];exp=[]
for _ in range(4000):
    for k,f,gg in(("i",i,gi),("t",time,g),("b",size,g),("m",mm,g)):
        v=gg()
        if not v: continue
        cases.append(k+" "+",".join(str(ord(c)) for c in v)); exp.append(f(v))
out=subprocess.run(['lake','env','lean','--run',SRC],input='\n'.join(cases)+'\n\n',capture_output=True,text=True,cwd='/verif/lean')
o=out.stdout.split('\n')
print(len(cases),len(o),out.stderr[:500])
bad=[(c,e,x) for c,e,x in zip(cases,exp,o) if e!=x]
print(len(bad),bad[:10], sum(e!="err" for e in exp))
