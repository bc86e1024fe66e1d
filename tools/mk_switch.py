"""Extracts the contributions of getDeltaMh2EFT{1,2}Loop from Verif/EFT/Model.lean with every flag on (definitions eftX1, eftX2 of Switches.lean)."""
import re
src=open('/verif/lean/Verif/EFT/Model.lean').read()
def body(name,end):
    i=src.index("def EftCalc.%s "%name); j=src.index(":= do",i); k=src.index("\n  return ",j)
    return src[j+6:k]
def conv(b):
    # join continued statements
    st=[]; 
    for l in b.split("\n"):
        if l.startswith("  let "): st.append(l.strip())
        elif l.strip(): st[-1]+="\n      "+l.strip()
    lets=[]; con=[]
    for s in st:
        m=re.match(r"let (\w+) ← calcIf \(.*?\) \(thr \.(\w+) omitMSSMLogs\)$",s,re.S)
        if m: lets.append("let %s := t .%s"%(m[1],m[2])); continue
        m=re.match(r"let (\w+) := zeroIf \(c\.on \.(\w+)\) \((.*)\)$",s,re.S)
        if m: con.append((m[2],m[3])); continue
        lets.append(s)
    f=lambda s:s.replace("(const ","(FOps.const ").replace("c.p.","p.").replace("c.p)","p)").replace("ofInt omitSMLogs","FOps.ofInt n").replace(" log "," FOps.log ").replace(" cos "," FOps.cos ")
    out=["  "+f(s) for s in lets]+["  match o with"]+["  | .%s => %s"%(o,f(e)) for o,e in con]+["  | _ => 0"]
    return "\n".join(out)
x1="/-- contribution of the order `o` to the one-loop correction; Mh2EFTCalculator.cpp:161-433 -/\ndef eftX1 (t : ThrOrder → F) (fB : F → F → F → F) (p : Params F) (n : Int) (o : Order) : F :=\n"+conv(body("loop1",0))
x2="/-- contribution of the order `o` to the two-loop correction; Mh2EFTCalculator.cpp:441-690 -/\ndef eftX2 (t : ThrOrder → F) (p : Params F) (n : Int) (o : Order) : F :=\n"+conv(body("loop2",0))
print(x1+"\n\n"+x2)
