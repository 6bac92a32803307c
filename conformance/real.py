import re
s=open('/repo/test/testdata_real.cpp').read()
s=s[s.index('realDataSet = {'):]
# tokenise strings
pos=0
recs=[]
# remove comments
s=re.sub(r'(?m)^\s*//[^\n]*','',s)
s=re.sub(r'(?ms)^/\*.*?\*/','',s)
i=s.index('{')+1
def ws(i):
    while s[i] in ' \t\n\r,': i+=1
    return i
def pstr(i):
    out=''
    i=ws(i)
    while s[i]=='"':
        j=s.index('"',i+1)
        out+=s[i+1:j]
        i=j+1
        while s[i] in ' \t\n\r': i+=1
    return out,i
while True:
    i=ws(i)
    if s[i]=='}': break
    assert s[i]=='{',s[i:i+50]
    i+=1
    icao,i=pstr(i); name,i=pstr(i)
    i=ws(i); assert s[i]=='{'; i=s.index('}',i)+1
    metar,i=pstr(i); taf,i=pstr(i)
    def attrs(i):
        i=ws(i)
        assert s[i]=='{',s[i-80:i+80]; j=s.index('}',i)
        return [x.split('::')[-1].strip() for x in s[i+1:j].split(',') if x.strip()], j+1
    ma,i=attrs(i); ta,i=attrs(i)
    i=ws(i); m=re.match(r'\d+',s[i:]); 
    c=0
    if m: c=int(m.group()); i+=m.end(); i=ws(i)
    assert s[i]=='}',s[i:i+60]
    i+=1
    recs.append((icao,metar,taf,ma,ta,c))
print(len(recs))
def q(x): return '"'+x.replace('\\','\\\\')+'"'
with open('/tmp/conf/Real.lean','w') as f:
    f.write('import Verif.Model.Parser\nopen Metaf\ninstance : FloatSem := exactFloat\n')
    f.write('''def attrs (m : ReportMetadata) : List (String × Bool) := [("SPECI", m.isSpeci), ("NOSPECI", m.isNospeci), ("AUTO", m.isAutomated), ("AO1", m.isAo1), ("AO1A", m.isAo1a), ("AO2", m.isAo2), ("AO2A", m.isAo2a), ("NIL", m.isNil), ("CNL", m.isCancelled), ("AMD", m.isAmended), ("COR", m.isCorrectional), ("MAINTENANCE_INDICATOR", m.maintenanceIndicator)]
def chk (rep : String) (ty : ReportType) (icao : String) (as : List String) (c : Nat) (useC : Bool) : Option String :=
  match Parser.parse rep.toList with
  | .error _ => some rep
  | .ok r =>
    let m := r.reportMetadata
    if m.type = ty ∧ m.error = .NONE ∧ String.ofList m.icaoLocation = icao ∧ ((attrs m).all fun (n, b) => b == as.contains n) ∧ (!useC || m.correctionNumber.getD 0 == c) then none
    else some (rep ++ reprStr m)
def main (_ : List String) : IO Unit := do
  let n ← IO.mkRef 0
  let go (x : Option String) : IO Unit := do
    n.modify (·+1)
    match x with | none => pure () | some s => IO.println s
  let h ← IO.FS.Handle.mk "/tmp/conf/real.txt" .read
  repeat
    let l ← h.getLine
    if l.isEmpty then break
    match (l.dropEnd 1).toString.splitOn "|" with
    | [k, icao, rep, as, c] =>
      go (chk rep (if k = "M" then .METAR else .TAF) icao (as.splitOn ",") c.toNat! (k == "M"))
    | _ => IO.println "bad"
  IO.println s!"{← n.get} checked"
''')
with open('/tmp/conf/real.txt','w') as f:
    for r in recs:
        assert '|' not in r[1]+r[2]
        if r[1]: f.write('|'.join(['M',r[0],r[1],','.join(r[3]),str(r[5])])+'\n')
        if r[2]: f.write('|'.join(['T',r[0],r[2],','.join(r[4]),'0'])+'\n')
