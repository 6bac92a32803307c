import re,glob
groups=['Keyword','Location','ReportTime','Trend','Wind','Visibility','Cloud','Weather','Temperature','Pressure','RunwayState','SeaSurface','MinMaxTemperature','Precipitation','LayerForecast','PressureTendency','CloudTypes','LowMidHighCloud','Lightning','Vicinity','Misc']
idx={g+'Group':i for i,g in enumerate(groups)}
skipped={}
out=[]
n=0
def args(a):
    # returns (strings, part, md?)
    parts=re.findall(r'"((?:[^"\\]|\\.)*)"',a)
    p=re.search(r'ReportPart::(\w+)',a)
    return parts,(p.group(1) if p else 'UNKNOWN')
def q(s): return '"'+s+'"'
for fn in sorted(glob.glob('/repo/test/test_*group.cpp')):
    src=open(fn).read()
    src=re.sub(r'(?m)^\s*//[^\n]*','',src)
    for m in re.finditer(r'TEST\((\w+),\s*(\w+)\)\s*\{(.*?)\n\}',src,re.S):
        name=m.group(2); body=m.group(3)
        # join adjacent strings
        body=re.sub(r'"\s*\n\s*"','',body)
        for (vn,vv) in re.findall(r'const std::string (\w+)\s*\(("[^"]*")\)',body)+re.findall(r'const std::string (\w+)\s*=\s*("[^"]*")',body)+re.findall(r'(?:const )?(?:auto|metaf::ReportPart) (\w+)\s*=\s*(metaf::ReportPart::\w+)',body):
            body=re.sub(r'(?<![\w"])'+vn+r'(?![\w"(])(?!\s*[=(])',vv,body)
        stm=[x.strip().replace('\n',' ') for x in re.split(r';\s*\n|;\s*$',body)]
        lines=[]; vars={}
        hasMd='reportMetadata' in body
        mdset=re.findall(r'(\w*[mM]etadata\w*)\.(\w+)\s*=\s*([^;]*)',body)
        if any(f not in('isAo1','isAo2','isAo1a','isAo2a','reportTime','type') for _,f,_ in mdset): pass
        for st in stm:
            st=re.sub(r'\s+',' ',st)
            a=re.match(r'(?:static )?(?:const )?auto (\w+) = metaf::(\w+Group)::parse\((.*)\)$',st)
            if a and a.group(2) in idx:
                ss,p=args(a.group(3))
                third=a.group(3).split(',')[2].strip() if a.group(3).count(',')>=2 else None
                if len(ss)!=1: continue
                md='{}' if not third else 'md_'+third
                vars[a.group(1)]=1
                lines.append(f'let mut {a.group(1)} : Option Group := P {idx[a.group(2)]} {q(ss[0])} .{p} {md}')
                continue
            a=re.match(r'auto (\w+) = (\w+)$',st)
            if a and a.group(2) in vars:
                vars[a.group(1)]=1
                lines.append(f'let mut {a.group(1)} : Option Group := {a.group(2)}'); continue
            a=re.match(r'(EXPECT|ASSERT)_(TRUE|FALSE)\(metaf::(\w+Group)::parse\((.*?)\)(?:\.has_value\(\))?\)$',st)
            if a and a.group(3) in idx:
                ss,p=args(a.group(4))
                third=a.group(4).split(',')[2].strip() if a.group(4).count(',')>=2 else None
                md='{}' if not third else 'md_'+third
                if len(ss)!=1: continue
                lines.append(f'C {q(name+" "+ss[0])} ((P {idx[a.group(3)]} {q(ss[0])} .{p} {md}).isSome == {a.group(2).lower()})'); n+=1
                continue
            a=re.match(r'(EXPECT|ASSERT)_(TRUE|FALSE)\((\w+)(?:\.has_value\(\))?\)$',st)
            if a and a.group(3) in vars:
                lines.append(f'C {q(name+" has "+a.group(3))} ({a.group(3)}.isSome == {a.group(2).lower()})'); n+=1; continue
            a=re.match(r'(EXPECT|ASSERT)_EQ\((\w+)->append\((.*)\), metaf::AppendResult::(\w+)\)$',st)
            if a and a.group(2) in vars:
                ss,p=args(a.group(3))
                third=a.group(3).split(',')[2].strip() if a.group(3).count(',')>=2 else None
                md='{}' if not third else 'md_'+third
                v=a.group(2)
                if len(ss)!=1: continue
                lines.append(f'let r := A {v} {q(ss[0])} .{p} {md}')
                lines.append(f'{v} := r.map (·.1)')
                lines.append(f'C {q(name+" app "+ss[0])} (r.map (·.2) == some .{a.group(4)})'); n+=1; continue
            a=re.match(r'(EXPECT|ASSERT)_EQ\((\w+)->(\w+)\(\), metaf::(\w+)::(\w+)::(\w+)\)$',st)
            if a and a.group(2) in vars:
                lines.append(f'C {q(name+" "+st.replace(chr(34),""))} (R {a.group(2)} {q("."+a.group(6))})'); n+=1; continue
            a=re.match(r'(EXPECT|ASSERT)_(TRUE|FALSE)\((\w+)->isValid\(\)\)$',st)
            if a and a.group(3) in vars:
                lines.append(f'C {q(name+" valid")} (V {a.group(3)} == {a.group(2).lower()})'); n+=1; continue
            if '->append' in st: skipped.setdefault(st,name); 
            if st: skipped.setdefault(re.sub(r'".*?"','S',st)[:90],name)
        mds=set(re.findall(r'md_(\w+)','\n'.join(lines)))
        pre=[]
        ok=True
        for md in mds:
            fs=[(f,v) for (x,f,v) in mdset if x==md]
            vals=[]
            for f,v in fs:
                if v.strip() in('true','false'): vals.append(f'{f} := {v.strip()}')
                elif 'fromStringDDHHMM' in v:
                    ss=re.findall(r'"(.*?)"',v)
                    vals.append(f'{f} := MetafTime.fromStringDDHHMM "{ss[0]}".toList')
                elif 'ReportType::' in v: vals.append(f'{f} := .{v.split("::")[-1].strip()}')
                else: ok=False; skipped[f'{md}.{f}={v}']=name
            pre.append(f'let md_{md} : ReportMetadata := {{ {", ".join(vals)} }}')
        if lines and ok:
            fname=f't{len(out)}'
            out.append('def '+fname+' : StateM (Nat × List String) Unit := do\n'+'\n'.join('  '+x for x in pre+lines))
with open('/tmp/conf/Acc.lean','w') as f:
    f.write('''import Verif.Model.Parser
open Metaf
instance : FloatSem := exactFloat
set_option linter.unusedVariables false
set_option maxHeartbeats 4000000
def P (i : Nat) (s : String) (p : ReportPart) (md : ReportMetadata) : Option Group :=
  match GroupParser.alternatives.find? (·.1 == i) with
  | some (_, f) => match f s.toList p md with | .ok r => r | .error _ => none
  | none => none
def A (g : Option Group) (s : String) (p : ReportPart) (md : ReportMetadata) : Option (Group × AppendResult) :=
  g.bind fun g => match g.append s.toList p md with | .ok r => some r | .error _ => none
instance : BEq AppendResult := ⟨fun a b => decide (a = b)⟩
def R (g : Option Group) (s : String) : Bool := match g with
  | none => false
  | some g => ((reprStr g).splitOn s).length > 1
def V (g : Option Group) : Bool := match g with
  | none => false
  | some g => match g with
    | .keyword x => x.isValid | .location x => x.isValid | .reportTime x => x.isValid | .trend x => x.isValid | .wind x => x.isValid
    | .visibility x => x.isValid | .cloud x => x.isValid | .weather x => (match x.isValid with | .ok b => b | .error _ => false)
    | .temperature x => x.isValid | .pressure x => x.isValid | .runwayState x => x.isValid | .seaSurface x => x.isValid
    | .minMaxTemperature x => x.isValid | .precipitation x => x.isValid | .layerForecast x => x.isValid
    | .pressureTendency x => x.isValid | .cloudTypes x => x.isValid | .lowMidHighCloud x => x.isValid
    | .lightning x => x.isValid | .vicinity x => x.isValid | .misc x => x.isValid | .unknown x => x.isValid
def C (l : String) (b : Bool) : StateM (Nat × List String) Unit := modify fun (n, e) => (n+1, if b then e else l :: e)
''')
    f.write('\n\n'.join(out))
    for k in range(0,len(out),50):
        f.write(f'\ndef ts{k//50} : List (StateM (Nat × List String) Unit) := ['+', '.join(f't{i}' for i in range(k,min(k+50,len(out))))+']\n')
    f.write('def main (_ : List String) : IO Unit := do\n  let mut n := 0\n  for ts in ['+', '.join(f'ts{k}' for k in range((len(out)+49)//50))+'] do\n    for t in ts do\n      let r := (t.run (0, [])).2\n      n := n + r.1\n      for e in r.2 do IO.println e\n  IO.println s!"{n} checked"\n')
print(n,len(out))
import collections
open('/tmp/conf/skipped.txt','w').write('\n'.join(f'{v}: {k}' for k,v in skipped.items()))
