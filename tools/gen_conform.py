#!/usr/bin/env python3
"""Writes lean/Verif/Tests/DdlParsers.lean: the tables of the tests of the four parsers in
/repo/internal/ddl, each case as a statement about the model."""
import os,re
repo='/repo/internal/ddl/'
def lean(s):
    out='b!"'
    for ch in s:
        if ch=='\n': out+='\\n'
        elif ch=='\t': out+='\\t'
        elif ch in '"\\': out+='\\'+ch
        else: out+=ch
    return out+'"'
names={'Match':'match_','Using':'using_','Where':'where_','When':'when_'}
def field(n): return names.get(n,n[0].lower()+n[1:])
def value(v):
    v=v.strip().rstrip(',')
    if v in('true','false'): return v
    if v.startswith('`'): return lean(v.strip('`'))
    if v.startswith('"'): return lean(v.strip('"'))
    if v.startswith('[]string{'): return '['+', '.join(lean(x) for x in re.findall(r'"([^"]*)"',v))+']'
    raise Exception(v)
def case(body):
    fields=[]; rest=body
    m=re.search(r'Keys: \[\]\*IndexKey\{(.*?)\n\t\t\t\},',body,re.S)
    if m:
        ks=[]
        for k in re.findall(r'\{([^{}]*)\}',m.group(1)):
            ks.append('{ '+', '.join('%s := %s'%(field(a),lean(b)) for a,b in re.findall(r'(\w+): "([^"]*)"',k))+' }')
        fields.append('keys := ['+', '.join(ks)+']')
        rest=body[:m.start()]+body[m.end():]
    for a,b in re.findall(r'\n\t\t\t(\w+):\s+(`[^`]*`|[^\n]*)',rest):
        fields.append('%s := %s'%(field(a),value(b)))
    return '{ '+', '.join(fields)+' }'
out=['import Verif.Ddl.Parse','import Verif.Ddl.Error','','/-!','# The tests of the parsers in /repo/internal/ddl, on the model','','Generated by tools/gen_conform.py from the tables of the tests.','-/','','namespace Verif.Tests','open Verif Verif.Ragel Verif.Ddl','']
for f,typ,fn in (('check','Check','parseCheck'),('index','Index','parseIndex'),('foreign_key','ForeignKey','parseForeignKey'),('trigger','Trigger','parseTrigger')):
    t=open(repo+f+'_parser_test.go').read()
    cs=re.findall(r'\{Stmt: `([^`]*)`,\n\t\tExpected: &'+typ+r'\{(.*?)\n\t\t\},',t,re.S)
    assert len(cs)==t.count('{Stmt: '),(f,len(cs))
    out.append('/-- %s_parser_test.go `TestParse%s`. -/'%(f,typ))
    out.append('example :')
    out.append(' ∧\n'.join('    %s %s =\n      .ok %s'%(fn,lean(s),case(b)) for s,b in cs)+' := by')
    out.append('  decide +kernel\n')
t=open(repo+'parser_utils_internal_test.go').read()
data=re.search(r'data: "([^"]*)"',t).group(1)
cs=re.findall(r'\{cs: (\d+), expected: "([^"]*)"\}',t)
out.append('/-- parser_utils_internal_test.go `TestParseError`. -/')
out.append('example :')
out.append(' ∧\n'.join('    parseErrorString %s b!"%s" = some b!"%s"'%(n,data,e) for n,e in cs)+' := by')
out.append('  decide +kernel\n')
out.append('end Verif.Tests')
p=os.path.join(os.path.dirname(os.path.abspath(__file__)),'..','lean/Verif/Tests')
os.makedirs(p,exist_ok=True)
open(p+'/DdlParsers.lean','w').write('\n'.join(out)+'\n')
