"""Compares every async function and class of /repo with its sync twin, as text: awaits, the
prefixes of names, sleeps, strings and annotations are taken away. Prints what differs. DESIGN.md, section 4."""
import ast,glob,difflib,re
names=set()
files=[f for f in glob.glob('/repo/aiootp/**/*.py',recursive=True)]
trees={f:ast.parse(open(f).read()) for f in files}
for t in trees.values():
    for n in ast.walk(t):
        if isinstance(n,(ast.FunctionDef,ast.AsyncFunctionDef,ast.ClassDef)): names.add(n.name)
        if isinstance(n,ast.Name): names.add(n.id)
        if isinstance(n,ast.Attribute): names.add(n.attr)
def strip(n):
    if n.startswith('__a') and n.endswith('__') and '__'+n[3:] in ('__init__','__enter__','__exit__','__iter__','__next__'): return '__'+n[3:]
    m=re.match(r'(_*)a(.+)$',n)
    if m and (m.group(1)+m.group(2)) in names and len(m.group(2))>2: return m.group(1)+m.group(2)
    m=re.match(r'(_*)Async(.+)$',n)
    if m: return m.group(1)+m.group(2)
    if n=='StopAsyncIteration': return 'StopIteration'
    return n
class N(ast.NodeTransformer):
    def visit_Await(self,n):
        self.generic_visit(n); return n.value
    def visit_AsyncFor(self,n):
        self.generic_visit(n); return ast.For(n.target,n.iter,n.body,n.orelse,None)
    def visit_AsyncWith(self,n):
        self.generic_visit(n); return ast.With(n.items,n.body,None)
    def visit_comprehension(self,n):
        self.generic_visit(n); n.is_async=0; return n
    def visit_AsyncFunctionDef(self,n):
        self.generic_visit(n); return ast.FunctionDef(strip(n.name),n.args,n.body,n.decorator_list,None,None)
    def visit_FunctionDef(self,n):
        self.generic_visit(n); n.name=strip(n.name); n.returns=None; return n
    def visit_ClassDef(self,n):
        self.generic_visit(n); n.name=strip(n.name); return n
    def visit_Name(self,n):
        n.id=strip(n.id); return n
    def visit_Attribute(self,n):
        self.generic_visit(n); n.attr=strip(n.attr); return n
    def visit_Constant(self,n):
        if isinstance(n.value,str): return ast.Constant('s')
        return n
    def visit_arg(self,n): n.annotation=None; return n
    def visit_AnnAssign(self,n):
        self.generic_visit(n)
        return ast.Assign([n.target],n.value,lineno=0) if n.value else None
    def visit_Expr(self,n):
        self.generic_visit(n)
        if isinstance(n.value,ast.Constant): return None
        if isinstance(n.value,ast.Call):
            c=n.value
            nm=c.func.id if isinstance(c.func,ast.Name) else ''
            if nm in('sleep','asleep') and not c.args: return None
        return n
import copy
def norm(n):
    n=N().visit(copy.deepcopy(n)); 
    if not getattr(n,'body',True): n.body=[ast.Pass()]
    for x in ast.walk(n):
        if hasattr(x,'body') and isinstance(x.body,list) and not x.body: x.body=[ast.Pass()]
    ast.fix_missing_locations(n); return ast.unparse(n)
pairs=0
def scope(body,f,cls=''):
    global pairs
    fs={n.name:n for n in body if isinstance(n,(ast.FunctionDef,ast.AsyncFunctionDef))}
    for n,x in fs.items():
        if isinstance(x,ast.AsyncFunctionDef) or n.startswith(('a','_a','__a')):
            s=strip(n)
            if s!=n and s in fs:
                pairs+=1
                a,b=norm(x),norm(fs[s])
                if a!=b:
                    print('##',f.replace('/repo/aiootp/',''),cls,n,x.lineno)
                    print('\n'.join(l for l in difflib.unified_diff(a.split('\n'),b.split('\n'),lineterm='',n=0) if not l.startswith(('---','+++','@@'))))
    for n in body:
        if isinstance(n,ast.ClassDef): scope(n.body,f,n.name)
allc={}
for f,t in trees.items():
    scope(t.body,f)
    for n in t.body:
        if isinstance(n,ast.ClassDef): allc[n.name]=(f,n)
for n,(f,c) in allc.items():
    if n.startswith('Async') and n[5:] in allc:
        a=norm(c);b=norm(allc[n[5:]][1])
        pairs+=1
        if a!=b:
            print('## class',n,f)
            print('\n'.join(l for l in difflib.unified_diff(a.split('\n'),b.split('\n'),lineterm='',n=1) if not l.startswith(('---','+++'))))
print('pairs',pairs)
