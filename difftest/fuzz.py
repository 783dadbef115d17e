# Compares the functions of the model that transcribe the Python standard library or Bash with the originals, on random
# inputs (no code of the repository is run). Usage: python3 fuzz.py SEED N, after lake build in ../lean.
import random,json,sys,subprocess,configparser,shlex,re,os,argparse,io,contextlib
from pathlib import PurePosixPath as PP
ENV0=dict(os.environ)
seed=int(sys.argv[1]) if len(sys.argv)>1 else 1; N=int(sys.argv[2]) if len(sys.argv)>2 else 3000
R=random.Random(seed)
def pick(al,n): return ''.join(R.choice(al) for _ in range(R.randint(0,n)))
EX={'DuplicateOptionError':'duplicateOption','DuplicateSectionError':'duplicateSection','MissingSectionHeaderError':'missingSectionHeader','ParsingError':'parsingError','InterpolationSyntaxError':'interpolationSyntax','InterpolationMissingOptionError':'interpolationMissing','InterpolationDepthError':'interpolationDepth','TypeError':'typeError','ValueError':'valueError','KeyError':'keyError','AttributeError':'attributeError'}
def exn(e): return EX.get(type(e).__name__,type(e).__name__)
CN='CONFIGPARSERENHANCED_COMMON'
def mk(ds):
    cp=configparser.ConfigParser(allow_no_value=True,delimiters=ds,default_section=CN); cp.optionxform=str; return cp
def raw(cp):
    f=lambda d:[[k,v] for k,v in d.items()]
    return [[[s,f(d)] for s,d in cp._sections.items()],f(cp._defaults)]
frag=['[a]','[b]','[a b]','['+CN+']','[','[]','[[x]]','[a]]','[a] tail','k','k=v','k : v','k:v','=v',':','k =','use a:','use a','  cont','\tcont2','','   ','# c','; c','  # c','k # v','k ; v','kk=','x%','a=%(b)s','b=%(a)s','b=1','c=%(d)s%(b)s','d=%%','e=%(','f=%(k)','g=%()s','h=%(k)s','\x0cz','\x1c','a =b','　k=v','k\x0bq = w','=','k==v','k=:v','"q"=1','  [a]',' k2=v2','k\\=v']
def gtext():
    ls=[R.choice(frag) if R.random()<.9 else pick(' \t[]=:#;%()sabk\x0b\x1c ',8) for _ in range(R.randint(0,9))]
    if R.random()<.7: ls=['[s]']+ls
    return ''.join(l+R.choice(['\n','\n','\n','\n','\r\n','\r',' \n']) for l in ls)+(R.choice(frag) if R.random()<.3 else '')
cases=[]; exp=[]
def add(c,e): cases.append(c); exp.append(e)
def tr(f,ok=lambda x:x):
    try: return ['ok',ok(f())]
    except RecursionError: return ['rec']
    except BaseException as e: return ['exc',exn(e)]
for i in range(N):
    t=gtext()
    ds=R.choice([['=',':'],['=',':'],['=',':'],[':'],['='],['=>','='],['=','=>'],['::',':'],['#'],[' ']])
    cp=mk(tuple(ds))
    tt=t.replace('\r\n','\n').replace('\r','\n')
    r=tr(lambda:cp._read(io.StringIO(tt),'f'),lambda x:None)
    add({'k':'reader','t':t,'ds':ds},[r,None if r==['exc','duplicateOption'] else ('raw',raw(cp),r[0])])
    cp=mk(('=',':'))
    try: cp.read_string(tt); v=[[[o,tr(lambda:cp[s][o])] for o in cp[s]] for s in cp.sections()]
    except configparser.Error: v=None
    except AttributeError: v=None
    add({'k':'values','t':t},v)
    t=pick('ab \'"\\\t\n\r#$ ',10); add({'k':'shlex','t':t},tr(lambda:shlex.split(t)))
    t=pick('ab_-0 \n.Z',5); add({'k':'matchesOp','t':t},bool(re.match(r"^[\w\-]+$",t)))
    t=pick('ab -#^\n\t\r\x0b\x1c',12)
    l=re.findall(r"(?:\s*?#.*\n*)*([^#^\n]*)",t); l=[x.strip() for x in l if x!='']
    add({'k':'valuesOf','t':t},l)
    add({'k':'cleanKey','t':t},re.findall(r"([^#^\s]*)(?:\s*#.*)?",t)[0])
    add({'k':'strip','t':t},t.strip())
    p=pick('ab.-_\n ',4); t=pick('ab.-_\n ',9)
    add({'k':'search','t':t,'p':p},re.findall(p,t)!=[])
    add({'k':'name','t':t,'p':p},['ok',re.search(f"(?:^|_){p}(?:$|_)",t) is not None])
    t=pick('ab \n\r\t\x0b\x0c\x1c\x1d\x1e\x1f\x85  ',10)
    add({'k':'splitlines','t':t},t.splitlines())
    add({'k':'trim','t':t},re.sub(r"\s+\n","\n",t))
    a,b=pick('a/.b~',8),pick('a/.b',6)
    p,q=PP(a),PP(b)
    add({'k':'path','t':a,'p':b},[str(p),str(p.parent),str(p/q),p.is_absolute()])
    t=pick('${}ABx_ \\\'-\n1é',9)
    os.environ.clear(); os.environ.update({'A':'va  l','B':'$A','E':'','AB':'x"y'})
    add({'k':'expandvars','t':t},os.path.expandvars(t))
    ws=[pick('aAbB._-0é',3) for _ in range(R.randint(0,6))]
    add({'k':'sort','a':ws},sorted(ws))
import ast,warnings
warnings.simplefilter('ignore')
def lit(): 
    r=R.random()
    if r<.3: return pick('ab\\xn',5)
    if r<.6: return ''.join(R.choice(['\\x41','\\x4','\\u0041','\\u41','\\U0001F600','\\U00110000','\\ud800','\\7','\\12','\\123','\\1234','\\8','\\400','\\777','\\q','\\\n','\\\r\n','\\\r','\\N','a','7','\n','\r',"\\'",'\\"',"'",'\\\\','é','\\é','\\a','\\b','\\f','\\v','\\t','\t','\x0c','#',')','$A','\\x7','\\xZZ','\\u00e9']) for _ in range(R.randint(0,3)))
    return pick("ab '#$\\\n\"),(",5)
def conv(n):
    if not(isinstance(n,ast.Call) and not n.keywords): return '?'
    f=ast.unparse(n.func)
    if not all(isinstance(a,ast.Constant) and isinstance(a.value,str) for a in n.args): return '?'
    return [f]+[a.value for a in n.args]
def pp(t):
    try: m=ast.parse(t)
    except SyntaxError: return 'SyntaxError'
    except ValueError: return 'ValueError'
    r=[]
    for st in m.body: r.append(conv(st.value) if isinstance(st,ast.Expr) else '?')
    return r
for i in range(N):
    def cmd():
        ws=['set','A',lit()] if R.random()<.7 else ['set',lit(),lit()]
        return 'envvar_op('+','.join('"'+w+'"' for w in ws)+')'
    t=cmd(); e=pp(t); add({'k':'pycall','t':t},e if isinstance(e,str) else (e[0] if len(e)==1 else '?'))
    t='# c\n'+''.join(cmd()+'\n' for _ in range(R.randint(0,3)))+'\n\n'
    add({'k':'pyprog','t':t},pp(t))
def parser(kind):
    P=argparse.ArgumentParser(add_help=True)
    P.add_argument('build_name',nargs='?',default='')
    S=lambda *n,dest: P.add_argument(*n,dest=dest,action='store',default=None)
    F=lambda *n,dest: P.add_argument(*n,dest=dest,action='store_true',default=False)
    if kind=='le':
        F('-l','--list-envs',dest='list_envs');S('-o','--output',dest='output');F('-f','--force',dest='force')
        S('--supported-systems',dest='supported_systems_file');S('--supported-envs',dest='supported_envs_file');S('--environment-specs',dest='environment_specs_file')
        P.add_argument('--ci-mode',dest='do_not_use_this_ci_mode_argument_in_load_env_python_code',action='store_false',default=False)
        S('--load-matching-env-location',dest='load_matching_env_location')
    else:
        F('-l','--list-configs',dest='list_configs');F('--list-config-flags',dest='list_config_flags');S('--cmake-fragment',dest='cmake_fragment')
        F('-f','--force',dest='force');F('-y','--yes',dest='yes');F('--ci-mode',dest='ci_mode');S('--save-load-env-args',dest='save_load_env_args')
        S('--supported-config-flags',dest='supported_config_flags_file');S('--config-specs',dest='config_specs_file');S('--supported-systems',dest='supported_systems_file');S('--supported-envs',dest='supported_envs_file');S('--environment-specs',dest='environment_specs_file')
    return P
PR={k:parser(k) for k in ('le','gc')}
words=['build','b 2','-l','-f','-y','-o','-lf','-fl','-oX','-fo','-lfo','--force','--forc','--f','--l','--list','--list-','--list-envs','--list-config','--list-configs','--list-config-flags','--output','--output=','--output=x','--out','--out=y','--supported','--supported-s','--supported-systems=s','--supported-envs','e','--environment-specs','--ci-mode','--ci','--c','--cmake-fragment=f','--cmake','--yes','--yes=1','-h','--help','-x','--xx','-5','-1.5','-.5','-5x','-','','- x','-x y','--x y','-f x','--force=','-o=z','-fo=z','--load-matching-env-location','loc','--save','--config','--config-s','-hl','-lh','-fx','-of','-ll','--=','--=x','-o -l']
for i in range(N):
    k=R.choice(['le','gc']); a=[R.choice(words) for _ in range(R.randint(0,5))]
    if R.random()<.15: a=[pick('-lfoy=h x',5) for _ in range(R.randint(0,3))]
    with contextlib.redirect_stderr(io.StringIO()),contextlib.redirect_stdout(io.StringIO()):
        try: e=['ok',vars(PR[k].parse_args(a))]
        except SystemExit: e=['exc','systemExit']
    add({'k':'args','p':k,'a':a},e)
# bash
B=[]
for i in range(N//3):
    t=R.choice(['x ','f '])+' '.join(R.choice([pick('ab-:/.=+,@%',4),'"'+pick('aAB$ {}E\'#-:~!;&|*',7)+'"']) for _ in range(R.randint(0,4)))
    B.append(('bash',t,None))
for i in range(N//3):
    B.append(('bashpat',pick('ab: ',8),pick('ab:',3) or ':'))
    B.append(('sed',pick('ab:/',8),pick('ab:/',3)))
script=''
for k,t,p in B:
    q=shlex.quote
    if k=='bash': script+='eval '+q('w '+t)+"; printf '\\001\\0'\n"
    elif k=='bashpat': script+=f"x={q(t)}; p={q(p)}; w \"${{x//${{p}}/:}}\" \"${{x#${{p}}}}\" \"${{x%${{p}}}}\"; printf '\\001\\0'\n"
    else: script+=f"x={q(t)}; p={q(p)}; w \"$(echo ${{x}} | sed s#${{p}}##g)\"; printf '\\001\\0'\n"
r=subprocess.run(['bash','-c',"w() { for x in \"$@\"; do printf '%s\\0' \"$x\"; done; }\n"+script] if len(script)<100000 else ['bash'],input=None if len(script)<100000 else "w() { for x in \"$@\"; do printf '%s\\0' \"$x\"; done; }\n"+script,capture_output=True,text=True,env={'A':'va  l','B':'$A','E':'','AB':'x"y','PATH':'/usr/bin:/bin'})
outs=r.stdout.split('\x01\0')[:-1]
assert len(outs)==len(B),(len(outs),len(B),r.stderr[:500])
for (k,t,p),o in zip(B,outs):
    o=o.split('\0')[:-1]
    add({'k':k,'t':t,'p':p or ''},o if k!='sed' else (o[0] if o else ''))
for i in range(0x3100):
    if 0xd800<=i<0xe000: continue
    add({'k':'space','t':chr(i)},chr(i).isspace())
open('/tmp/fuzz.jsonl','w').write('\n'.join(json.dumps(c) for c in cases))
r=subprocess.run(['/usr/bin/env','lake','env','lean','--run','../difftest/driver.lean.txt','/tmp/fuzz.jsonl'],env=ENV0,cwd='/verif/lean',capture_output=True,text=True)
if r.returncode: print(r.stdout[:2000],r.stderr[:3000]); sys.exit(1)
got=[json.loads(l) for l in r.stdout.split('\n') if l]
assert len(got)==len(cases),(len(got),len(cases))
from collections import Counter
ok=Counter();bad=Counter();nm=Counter()
def same(c,e,g):
    if g=='NotModelled' or g==['exc','NotModelled']: nm[c['k']]+=1; return True
    if c['k']=='args' and e[0]=='ok': return g[0]=='ok' and dict(map(tuple,g[1]))==e[1]
    if c['k']=='reader':
        if e[0]!=g[0]: return False
        if e[1] is None: return g[1] is None
        return e[1][1]==g[1] 
    return e==g
for c,e,g in zip(cases,exp,got):
    if same(c,e,g): ok[c['k']]+=1
    else:
        bad[c['k']]+=1
        if bad[c['k']]<=4: print(json.dumps(c),'\n   py  ',json.dumps(e),'\n   lean',json.dumps(g))
print('ok',dict(ok));print('bad',dict(bad));print('nm',dict(nm))
