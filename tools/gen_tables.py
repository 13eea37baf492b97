"""Writes lean/Verif/Model/MassLossTables.lean from the tables in /repo (read as text)."""
import re
D='/repo/pyHalo/Halos/galacticus_truncation/'
def tab(f,name):
    s=open(D+f).read()
    m=re.search(r'^'+name+r'\s*=\s*(?:np\.array\()?\s*\[(.*?)\]',s,re.M|re.S)
    line=s[:m.start()].count('\n')+1
    v=[round(float(x)*1000) for x in m.group(1).replace('\n',' ').split(',') if x.strip()]
    w=[float(x) for x in m.group(1).replace('\n',' ').split(',') if x.strip()]
    assert all(abs(a*1000-b)<1e-6 for a,b in zip(w,v))
    end=s[:m.end()].count('\n')+1
    return v,line,end
T=[('aFit','johnsonSUparams.py','a_fit'),('bFit','johnsonSUparams.py','b_fit'),
('aFitZ','johnsonSUparams.py','a_fit_zinfall'),('bFitZ','johnsonSUparams.py','b_fit_zinfall'),
('aFit30','johnsonSUparams_MW_rmax30kpc.py','a_fit'),('bFit30','johnsonSUparams_MW_rmax30kpc.py','b_fit'),
('aFit50','johnsonSUparams_MW_rmax50kpc.py','a_fit'),('bFit50','johnsonSUparams_MW_rmax50kpc.py','b_fit'),
('aFit200','johnsonSUparams_MW_rmax200kpc.py','a_fit'),('bFit200','johnsonSUparams_MW_rmax200kpc.py','b_fit'),
('meanKeeley','tabulated_mass_loss_Keeley24.py','_log10_mbound_over_minfall'),
('scatterKeeley','tabulated_mass_loss_Keeley24.py','_log10_mbound_over_minfall_scatter_dex')]
out=['''import Mathlib.Init

/-!
# Tables of the tidal mass loss models

Generated by `tools/gen_tables.py` from the python sources; every entry is 1000 times the number in
the source (all of them have at most three decimals).
-/

set_option maxRecDepth 100000

namespace PyHalo.MassLossTables
''']
for n,f,k in T:
    v,a,b=tab(f,k)
    neg=min(v)<0
    if neg: v=[-x for x in v]; assert min(v)>=0
    print(n,len(v),min(v),max(v))
    out.append(f"/-- `{k}`, `galacticus_truncation/{f}` {a}-{b}"+("; minus 1000 times the entries" if neg else "")+". -/")
    out.append(f"def {n} : List Nat := [")
    for i in range(0,len(v),15):
        out.append("  "+", ".join(map(str,v[i:i+15]))+("," if i+15<len(v) else "]"))
    out.append(f"\ntheorem {n}_length : {n}.length = {len(v)} := by decide +kernel\n")
    out.append(f"theorem {n}_bounds : ({n}.all fun x => Nat.ble {min(v)} x && Nat.ble x {max(v)}) = true := by\n  decide +kernel\n")
out.append("end PyHalo.MassLossTables")
open('/verif/lean/Verif/Model/MassLossTables.lean','w').write('\n'.join(out)+'\n')
