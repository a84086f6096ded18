#include <iostream>
#include <sstream>
#include <iomanip>
#include <random>
#include <cstring>
#include <cstdint>
using namespace std;
static string hex(const string&s){ostringstream o;for(unsigned char c:s)o<<std::hex<<setw(2)<<setfill('0')<<(int)c;string r=o.str();return r.empty()?"-":r;}
int main(){mt19937_64 g(7);
 for(int i=0;i<6000;i++){uint64_t b=g(); if(i%7==0)b&=0x800FFFFFFFFFFFFFull; if(i%11==0){double d=(double)((int)(g()%2000001)-1000000)/ (i%3?1:8);memcpy(&b,&d,8);} if(i%13==0){double d=((double)((int)(g()%20001)-10000))*1e-5;memcpy(&b,&d,8);} if(i%101==0) b=0x7ff0000000000000ull|(g()%3); if(i%103==0)b=(g()%2)<<63; if(i%17==0){double d=(double)(g()%100000000)/1e4;memcpy(&b,&d,8);}
  int p=(i%5==0)?17:(i%5==1)?6:(int)(g()%20); double d;memcpy(&d,&b,8); ostringstream o;o.precision(p);o<<d; cout<<"F "<<b<<" "<<p<<" "<<hex(o.str())<<"\n"; ostringstream x;x.precision(p);x<<fixed<<d; cout<<"f "<<b<<" "<<p<<" "<<hex(x.str())<<"\n"; ostringstream y;y.precision(p);y<<scientific<<d; cout<<"e "<<b<<" "<<p<<" "<<hex(y.str())<<"\n";}
 const char* al="0123456789+-.eE \n\"\\x$";
 for(int i=0;i<30000;i++){ int n=g()%(i%10==0?25:9); string s; for(int k=0;k<n;k++){ int m=g()%100; if(m<60)s+=al[g()%10]; else s+=al[g()%strlen(al)]; }
  if(i%50==0){ s="1e"+to_string((int)(g()%40)+290)+" "; }
  if(i%51==0){ s=to_string(g())+to_string(g()%100)+" ";} 
  if(i%53==0){ s="1.7976931348623158"+to_string(g()%10)+"e308"; }
  if(i%57==0){ s=to_string(g()%100)+"e-"+to_string(300+g()%40)+"x"; }
  { istringstream in(s); double d=7; in>>d; uint64_t b;memcpy(&b,&d,8); string rest; bool e=in.eof(),f=in.fail(); in.clear(); getline(in,rest,'\0'); cout<<"D "<<hex(s)<<" "<<b<<" "<<e<<" "<<f<<" "<<hex(rest)<<"\n";}
  { istringstream in(s); size_t d=7; in>>d; string rest; bool e=in.eof(),f=in.fail(); in.clear(); getline(in,rest,'\0'); cout<<"U "<<hex(s)<<" "<<d<<" "<<e<<" "<<f<<" "<<hex(rest)<<"\n";}
  { istringstream in(s); int d=7; in>>d; string rest; bool e=in.eof(),f=in.fail(); in.clear(); getline(in,rest,'\0'); cout<<"I "<<hex(s)<<" "<<(unsigned)d<<" "<<e<<" "<<f<<" "<<hex(rest)<<"\n";}
  { istringstream in(s); string d="old"; in>>d; string rest; bool e=in.eof(),f=in.fail(); in.clear(); getline(in,rest,'\0'); cout<<"S "<<hex(s)<<" "<<hex(d)<<" "<<e<<" "<<f<<" "<<hex(rest)<<"\n";}
  { if(i%3==0) s="\""+s; istringstream in(s); string d="old"; in>>quoted(d); string rest; bool e=in.eof(),f=in.fail(); in.clear(); getline(in,rest,'\0'); cout<<"Q "<<hex(s)<<" "<<hex(d)<<" "<<e<<" "<<f<<" "<<hex(rest)<<"\n"; ostringstream o;o<<quoted(s); cout<<"q "<<hex(s)<<" "<<hex(o.str())<<"\n";}
 }}
