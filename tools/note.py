import json,sys
f='/verif/tools/notes.json'
n=json.load(open(f)); n[sys.argv[1]]=[sys.argv[2],sys.argv[3]]; json.dump(n,open(f,'w'),indent=1,sort_keys=True)
