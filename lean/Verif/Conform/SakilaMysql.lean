import Verif.Conform.SakilaPostgres
import Verif.Conform.Dsl
import Verif.Model.Calls
import Verif.Model.Reflect
import Verif.Model.Run
/-
Generated by tools/sakila.py mysql from /repo/ddl/sakila_tables_test.go, migration_test.go and testdata: a test of the model, not a proof.
The tables, views and functions of the Sakila database, declared as the test declares them, give the script that the test expects (`Migrate`
from nothing, then `WriteSQL`).
-/
namespace Conform.Sakila.mysql
open Sq Conform Sq.Deriving Sq.Reflecting Ddl

set_option maxRecDepth 100000

/-- `strconv.ParseFloat` succeeds, as far as the defaults here need it. -/
def num (s : Str) : Bool := s ≠ [] && s.all fun c => c.isDigit || c == '.'

/-- The outcome is this text. -/
def gave (r : Res Str) (s : Str) : Bool := match r with | .ok t => t == s | _ => false

/-- `ddl/ddl.go:77-120` for the kind of a field. -/
def ft (d : Dialect) (k : FType) : Str := defaultColumnType d (.typed k {} false)
def ACTOR : TableSource :=
  { name := c!"actor"
    fields := [
      .other c!"",
      .column c!"actor_id" (ft .mysql .number) c!"sqlite:type=INTEGER primarykey auto_increment autoincrement identity",
      .column c!"first_name" (ft .mysql .string) c!"mysql:type=VARCHAR(45) notnull",
      .column c!"last_name" (ft .mysql .string) c!"mysql:type=VARCHAR(45) notnull index",
      .column c!"full_name" (ft .mysql .string) c!"expr={first_name || ' ' || last_name} mysql:expr={CONCAT(first_name, ' ', last_name)}",
      .column c!"full_name_reversed" (ft .mysql .string) c!"storedexpr={last_name || ' ' || first_name} mysql:storedexpr={CONCAT(last_name, ' ', first_name)}",
      .column c!"last_update" (ft .mysql .time) c!"notnull default=CURRENT_TIMESTAMP onupdatecurrenttimestamp"]
    ddl := fun _ => [] }
def ADDRESS : TableSource :=
  { name := c!"address"
    fields := [
      .other c!"",
      .column c!"address_id" (ft .mysql .number) c!"sqlite:type=INTEGER primarykey auto_increment identity",
      .column c!"address" (ft .mysql .string) c!"notnull mysql:type=VARCHAR(50)",
      .column c!"address2" (ft .mysql .string) c!"mysql:type=VARCHAR(50)",
      .column c!"district" (ft .mysql .string) c!"notnull mysql:type=VARCHAR(20)",
      .column c!"city_id" (ft .mysql .number) c!"notnull references={city.city_id onupdate=cascade ondelete=restrict index}",
      .column c!"postal_code" (ft .mysql .string) c!"mysql:type=VARCHAR(10)",
      .column c!"phone" (ft .mysql .string) c!"notnull mysql:type=VARCHAR(20)",
      .column c!"last_update" (ft .mysql .time) c!"notnull default=CURRENT_TIMESTAMP onupdatecurrenttimestamp"]
    ddl := fun _ => [] }
def CATEGORY : TableSource :=
  { name := c!"category"
    fields := [
      .other c!"",
      .column c!"category_id" (ft .mysql .number) c!"sqlite:type=INTEGER primarykey auto_increment identity",
      .column c!"name" (ft .mysql .string) c!"mysql:type=VARCHAR(25) notnull",
      .column c!"last_update" (ft .mysql .time) c!"notnull default=CURRENT_TIMESTAMP onupdatecurrenttimestamp"]
    ddl := fun _ => [] }
def CITY : TableSource :=
  { name := c!"city"
    fields := [
      .other c!"",
      .column c!"city_id" (ft .mysql .number) c!"sqlite:type=INTEGER primarykey auto_increment identity",
      .column c!"city" (ft .mysql .string) c!"notnull mysql:type=VARCHAR(50)",
      .column c!"country_id" (ft .mysql .number) c!"notnull references={country.country_id onupdate=cascade ondelete=restrict index}",
      .column c!"last_update" (ft .mysql .time) c!"notnull default=CURRENT_TIMESTAMP onupdatecurrenttimestamp"]
    ddl := fun _ => [] }
def COUNTRY : TableSource :=
  { name := c!"country"
    fields := [
      .other c!"",
      .column c!"country_id" (ft .mysql .number) c!"sqlite:type=INTEGER primarykey auto_increment identity",
      .column c!"country" (ft .mysql .string) c!"notnull mysql:type=VARCHAR(50)",
      .column c!"last_update" (ft .mysql .time) c!"notnull default=CURRENT_TIMESTAMP onupdatecurrenttimestamp"]
    ddl := fun _ => [] }
def CUSTOMER : TableSource :=
  { name := c!"customer"
    fields := [
      .other c!"unique={email,first_name,last_name}",
      .column c!"customer_id" (ft .mysql .number) c!"sqlite:type=INTEGER primarykey auto_increment identity",
      .column c!"store_id" (ft .mysql .number) c!"notnull index",
      .column c!"first_name" (ft .mysql .string) c!"mysql:type=VARCHAR(45) notnull",
      .column c!"last_name" (ft .mysql .string) c!"mysql:type=VARCHAR(45) notnull index",
      .column c!"email" (ft .mysql .string) c!"mysql:type=VARCHAR(50) unique",
      .column c!"address_id" (ft .mysql .number) c!"notnull references={address onupdate=cascade ondelete=restrict index}",
      .column c!"active" (ft .mysql .boolean) c!"default=TRUE notnull",
      .column c!"data" (ft .mysql .json) c!"",
      .column c!"create_date" (ft .mysql .time) c!"notnull default=CURRENT_TIMESTAMP",
      .column c!"last_update" (ft .mysql .time) c!"notnull default=CURRENT_TIMESTAMP onupdatecurrenttimestamp"]
    ddl := fun _ => [] }
def FILM : TableSource :=
  { name := c!"film"
    fields := [
      .other c!"",
      .column c!"film_id" (ft .mysql .number) c!"sqlite:type=INTEGER primarykey auto_increment identity",
      .column c!"title" (ft .mysql .string) c!"notnull index",
      .column c!"description" (ft .mysql .string) c!"type=TEXT",
      .column c!"release_year" (ft .mysql .number) c!"",
      .column c!"language_id" (ft .mysql .number) c!"notnull references={language onupdate=cascade ondelete=restrict index}",
      .column c!"original_language_id" (ft .mysql .number) c!"references={language.language_id onupdate=cascade ondelete=restrict index}",
      .column c!"rental_duration" (ft .mysql .number) c!"default=3 notnull",
      .column c!"rental_rate" (ft .mysql .number) c!"type=DECIMAL(4,2) default=4.99 notnull",
      .column c!"length" (ft .mysql .number) c!"",
      .column c!"replacement_cost" (ft .mysql .number) c!"type=DECIMAL(5,2) default=19.99 notnull",
      .column c!"rating" (ft .mysql .string) c!"mysql:type=ENUM('G','PG','PG-13','R','NC-17') default='G'",
      .column c!"special_features" (ft .mysql .custom) c!"type=JSON postgres:type=TEXT[]",
      .column c!"last_update" (ft .mysql .time) c!"notnull default=CURRENT_TIMESTAMP onupdatecurrenttimestamp",
      .column c!"fulltext" (ft .mysql .string) c!"ignore=mysql,sqlite postgres:type=TSVECTOR postgres:index={. using=GIST}"]
    ddl := fun _ => [.check c!"film_release_year_check" c!"{1} >= 1901 AND {1} <= 2155" [(newField c!"release_year" { name := c!"film", «alias» := c!"" })] [],
      .trigger c!"\nCREATE TRIGGER film_after_insert_trg AFTER INSERT ON film FOR EACH ROW BEGIN\n    INSERT INTO film_text (film_id, title, description) VALUES (NEW.film_id, NEW.title, NEW.description);\nEND" [],
      .trigger c!"\nCREATE TRIGGER film_after_update_trg AFTER UPDATE ON film FOR EACH ROW BEGIN\n    IF OLD.title <> NEW.title OR OLD.description <> NEW.description THEN\n        UPDATE film_text\n        SET title = NEW.title, description = NEW.description, film_id = NEW.film_id\n        WHERE film_id = OLD.film_id;\n    END IF;\nEND" [],
      .trigger c!"\nCREATE TRIGGER film_after_delete_trg AFTER DELETE ON film FOR EACH ROW BEGIN\n    DELETE FROM film_text WHERE film_id = OLD.film_id;\nEND" []] }
def FILM_ACTOR : TableSource :=
  { name := c!"film_actor"
    fields := [
      .other c!"",
      .other c!"index={actor_id,film_id unique}",
      .column c!"film_id" (ft .mysql .number) c!"notnull references={film onupdate=cascade ondelete=restrict index}",
      .column c!"actor_id" (ft .mysql .number) c!"notnull references={actor onupdate=cascade ondelete=restrict}",
      .column c!"last_update" (ft .mysql .time) c!"notnull default=CURRENT_TIMESTAMP onupdatecurrenttimestamp"]
    ddl := fun _ => [] }
def FILM_ACTOR_REVIEW : TableSource :=
  { name := c!"film_actor_review"
    fields := [
      .other c!"",
      .column c!"film_id" (ft .mysql .number) c!"type=INT",
      .column c!"actor_id" (ft .mysql .number) c!"type=INT",
      .column c!"review_title" (ft .mysql .string) c!"mysql:type=VARCHAR(50) notnull default='' sqlite:collate=nocase postgres:collate=C mysql:collate=latin1_swedish_ci",
      .column c!"review_body" (ft .mysql .string) c!"notnull default=''",
      .column c!"metadata" (ft .mysql .json) c!"",
      .column c!"last_update" (ft .mysql .time) c!"notnull default=CURRENT_TIMESTAMP postgres:default=NOW() sqlite:default=DATETIME('now') onupdatecurrenttimestamp",
      .column c!"delete_date" (ft .mysql .time) c!""]
    ddl := fun _ => [.key .primaryKey none [(newField c!"film_id" { name := c!"film_actor_review", «alias» := c!"" }), (newField c!"actor_id" { name := c!"film_actor_review", «alias» := c!"" })] [],
      .key .foreignKey none [(newField c!"film_id" { name := c!"film_actor_review", «alias» := c!"" }), (newField c!"actor_id" { name := c!"film_actor_review", «alias» := c!"" })] [.references (.table c!"" c!"film_actor" c!"" (fun _ => .none) (fun _ => .nil)) [(newField c!"film_id" { name := c!"film_actor", «alias» := c!"" }), (newField c!"actor_id" { name := c!"film_actor", «alias» := c!"" })], .onUpdate c!"CASCADE", .deferrable, .initiallyDeferred],
      .check c!"film_actor_review_check" c!"LENGTH({}) > LENGTH({})" [(newField c!"review_body" { name := c!"film_actor_review", «alias» := c!"" }), (newField c!"review_title" { name := c!"film_actor_review", «alias» := c!"" })] [],
      .index (some c!"film_actor_review_misc") [(newField c!"film_id" { name := c!"film_actor_review", «alias» := c!"" }), (Conform.fieldf c!"SUBSTR({}, 2, 10)" [(newField c!"review_body" { name := c!"film_actor_review", «alias» := c!"" })]), (Conform.fieldf c!"CONCAT({}, {})" [(newField c!"review_title" { name := c!"film_actor_review", «alias» := c!"" }), (.scalar (.str c!" abcd"))]), (Conform.fieldf c!"CAST({}->>{} AS SIGNED)" [(newField c!"metadata" { name := c!"film_actor_review", «alias» := c!"" }), (.scalar (.str c!"$.score"))])] []] }
def FILM_CATEGORY : TableSource :=
  { name := c!"film_category"
    fields := [
      .other c!"",
      .column c!"film_id" (ft .mysql .number) c!"notnull references={film onupdate=cascade ondelete=restrict}",
      .column c!"category_id" (ft .mysql .number) c!"notnull references={category onupdate=cascade ondelete=restrict}",
      .column c!"last_update" (ft .mysql .time) c!"notnull default=CURRENT_TIMESTAMP onupdatecurrenttimestamp"]
    ddl := fun _ => [] }
def FILM_TEXT : TableSource :=
  { name := c!"film_text"
    fields := [
      .other c!"ignore=postgres virtual={fts5 content='film' content_rowid='film_id'} mysql:index={title,description using=FULLTEXT}",
      .column c!"film_id" (ft .mysql .number) c!"ignore=sqlite notnull primarykey",
      .column c!"title" (ft .mysql .string) c!"mysql:type=VARCHAR(255)",
      .column c!"description" (ft .mysql .string) c!"mysql:type=TEXT"]
    ddl := fun _ => [] }
def INVENTORY : TableSource :=
  { name := c!"inventory"
    fields := [
      .other c!"index=store_id,film_id",
      .column c!"inventory_id" (ft .mysql .number) c!"sqlite:type=INTEGER primarykey auto_increment identity",
      .column c!"film_id" (ft .mysql .number) c!"notnull references={film onupdate=cascade ondelete=restrict}",
      .column c!"store_id" (ft .mysql .number) c!"notnull references={store onupdate=cascade ondelete=restrict}",
      .column c!"last_update" (ft .mysql .time) c!"notnull default=CURRENT_TIMESTAMP onupdatecurrenttimestamp"]
    ddl := fun _ => [] }
def LANGUAGE : TableSource :=
  { name := c!"language"
    fields := [
      .other c!"",
      .column c!"language_id" (ft .mysql .number) c!"sqlite:type=INTEGER primarykey auto_increment identity",
      .column c!"name" (ft .mysql .string) c!"notnull mysql:type=CHAR(20)",
      .column c!"last_update" (ft .mysql .time) c!"notnull default=CURRENT_TIMESTAMP onupdatecurrenttimestamp"]
    ddl := fun _ => [] }
def PAYMENT : TableSource :=
  { name := c!"payment"
    fields := [
      .other c!"",
      .column c!"payment_id" (ft .mysql .number) c!"sqlite:type=INTEGER primarykey auto_increment identity",
      .column c!"customer_id" (ft .mysql .number) c!"notnull index references={customer onupdate=cascade ondelete=restrict}",
      .column c!"staff_id" (ft .mysql .number) c!"notnull index references={staff onupdate=cascade ondelete=restrict}",
      .column c!"rental_id" (ft .mysql .number) c!"references={rental onupdate=cascade ondelete=restrict}",
      .column c!"amount" (ft .mysql .number) c!"type=DECIMAL(5,2) notnull",
      .column c!"payment_date" (ft .mysql .time) c!"notnull"]
    ddl := fun _ => [] }
def RENTAL : TableSource :=
  { name := c!"rental"
    fields := [
      .other c!"index={rental_date,inventory_id,customer_id unique}",
      .column c!"rental_id" (ft .mysql .number) c!"sqlite:type=INTEGER primarykey auto_increment identity",
      .column c!"rental_date" (ft .mysql .time) c!"notnull",
      .column c!"inventory_id" (ft .mysql .number) c!"notnull index references={inventory onupdate=cascade ondelete=restrict}",
      .column c!"customer_id" (ft .mysql .number) c!"notnull index references={customer onupdate=cascade ondelete=restrict}",
      .column c!"return_date" (ft .mysql .time) c!"",
      .column c!"staff_id" (ft .mysql .number) c!"notnull index references={staff onupdate=cascade ondelete=restrict}",
      .column c!"last_update" (ft .mysql .time) c!"notnull default=CURRENT_TIMESTAMP onupdatecurrenttimestamp"]
    ddl := fun _ => [] }
def STAFF : TableSource :=
  { name := c!"staff"
    fields := [
      .other c!"",
      .column c!"staff_id" (ft .mysql .number) c!"sqlite:type=INTEGER primarykey auto_increment identity",
      .column c!"first_name" (ft .mysql .string) c!"mysql:type=VARCHAR(45) notnull",
      .column c!"last_name" (ft .mysql .string) c!"mysql:type=VARCHAR(45) notnull",
      .column c!"address_id" (ft .mysql .number) c!"notnull references={address onupdate=cascade ondelete=restrict}",
      .column c!"email" (ft .mysql .string) c!"mysql:type=VARCHAR(50)",
      .column c!"store_id" (ft .mysql .number) c!"references=store",
      .column c!"active" (ft .mysql .boolean) c!"default=TRUE notnull",
      .column c!"username" (ft .mysql .string) c!"mysql:type=VARCHAR(16) notnull",
      .column c!"password" (ft .mysql .string) c!"mysql:type=VARCHAR(40)",
      .column c!"last_update" (ft .mysql .time) c!"notnull default=CURRENT_TIMESTAMP onupdatecurrenttimestamp",
      .column c!"picture" (ft .mysql .binary) c!""]
    ddl := fun _ => [] }
def STORE : TableSource :=
  { name := c!"store"
    fields := [
      .other c!"",
      .column c!"store_id" (ft .mysql .number) c!"sqlite:type=INTEGER primarykey auto_increment identity",
      .column c!"manager_staff_id" (ft .mysql .number) c!"notnull references={staff.staff_id onupdate=cascade ondelete=restrict index={. unique}}",
      .column c!"address_id" (ft .mysql .number) c!"notnull references={address onupdate=cascade ondelete=restrict}",
      .column c!"last_update" (ft .mysql .time) c!"notnull default=CURRENT_TIMESTAMP onupdatecurrenttimestamp"]
    ddl := fun _ => [] }
def ACTOR_INFO : ViewDecl :=
  { name := c!"actor_info"
    fields := [none, some c!"actor_id", some c!"first_name", some c!"last_name", some c!"film_info"]
    ddl := fun _ => [.setQuery (Chain.select ⟨.sqlite, none⟩ (.from (.table c!"" c!"actor" c!"a" (fun _ => .none) (fun _ => .nil))) [.join .leftJoin (.table c!"" c!"film_actor" c!"fa" (fun _ => .none) (fun _ => .nil)) [(Call.eq (newField c!"actor_id" { name := c!"film_actor", «alias» := c!"fa" }) (newField c!"actor_id" { name := c!"actor", «alias» := c!"a" })).node], .join .leftJoin (.table c!"" c!"film_category" c!"fc" (fun _ => .none) (fun _ => .nil)) [(Call.eq (newField c!"film_id" { name := c!"film_category", «alias» := c!"fc" }) (newField c!"film_id" { name := c!"film_actor", «alias» := c!"fa" })).node], .join .leftJoin (.table c!"" c!"category" c!"c" (fun _ => .none) (fun _ => .nil)) [(Call.eq (newField c!"category_id" { name := c!"category", «alias» := c!"c" }) (newField c!"category_id" { name := c!"film_category", «alias» := c!"fc" })).node], .groupBy [(newField c!"actor_id" { name := c!"actor", «alias» := c!"a" }), (newField c!"first_name" { name := c!"actor", «alias» := c!"a" }), (newField c!"last_name" { name := c!"actor", «alias» := c!"a" })], .select [(newField c!"actor_id" { name := c!"actor", «alias» := c!"a" }), (newField c!"first_name" { name := c!"actor", «alias» := c!"a" }), (newField c!"last_name" { name := c!"actor", «alias» := c!"a" }), (modify (.as_ c!"film_info") (.field { formats := [(c!"default", c!"jsonb_object_agg({}, {})"), (c!"sqlite", c!"json_group_object({}, {})"), (c!"mysql", c!"json_objectagg({}, {})")] } false false [(newField c!"name" { name := c!"category", «alias» := c!"c" }), (Conform.fieldf c!"({})" [(Chain.select ⟨.sqlite, none⟩ (.select [(.field { formats := [(c!"default", c!"jsonb_agg({})"), (c!"sqlite", c!"json_group_array({})"), (c!"mysql", c!"json_arrayagg({})")] } false false [(newField c!"title" { name := c!"film", «alias» := c!"f" })])]) [.from (.table c!"" c!"film" c!"f" (fun _ => .none) (fun _ => .nil)), .join .join (.table c!"" c!"film_category" c!"fc" (fun _ => .none) (fun _ => .nil)) [(Call.eq (newField c!"film_id" { name := c!"film_category", «alias» := c!"fc" }) (newField c!"film_id" { name := c!"film", «alias» := c!"f" })).node], .join .join (.table c!"" c!"film_actor" c!"fa" (fun _ => .none) (fun _ => .nil)) [(Call.eq (newField c!"film_id" { name := c!"film_actor", «alias» := c!"fa" }) (newField c!"film_id" { name := c!"film", «alias» := c!"f" })).node], .where [(Call.eq (newField c!"category_id" { name := c!"film_category", «alias» := c!"fc" }) (newField c!"category_id" { name := c!"category", «alias» := c!"c" })).node, (Call.eq (newField c!"actor_id" { name := c!"film_actor", «alias» := c!"fa" }) (newField c!"actor_id" { name := c!"actor", «alias» := c!"a" })).node], .groupBy [(newField c!"actor_id" { name := c!"film_actor", «alias» := c!"fa" })]]).node])]))]]).node] }
def CUSTOMER_LIST : ViewDecl :=
  { name := c!"customer_list"
    fields := [none, some c!"id", some c!"name", some c!"address", some c!"zip code", some c!"phone", some c!"city", some c!"country", some c!"notes", some c!"sid"]
    ddl := fun _ => [.setQuery (Chain.select ⟨.sqlite, none⟩ (.from (.table c!"" c!"customer" c!"cu" (fun _ => .none) (fun _ => .nil))) [.join .join (.table c!"" c!"address" c!"a" (fun _ => .none) (fun _ => .nil)) [(Call.eq (newField c!"address_id" { name := c!"address", «alias» := c!"a" }) (newField c!"address_id" { name := c!"customer", «alias» := c!"cu" })).node], .join .join (.table c!"" c!"city" c!"" (fun _ => .none) (fun _ => .nil)) [(Call.eq (newField c!"city_id" { name := c!"city", «alias» := c!"" }) (newField c!"city_id" { name := c!"address", «alias» := c!"a" })).node], .join .join (.table c!"" c!"country" c!"" (fun _ => .none) (fun _ => .nil)) [(Call.eq (newField c!"country_id" { name := c!"country", «alias» := c!"" }) (newField c!"country_id" { name := c!"city", «alias» := c!"" })).node], .select [(modify (.as_ c!"id") (newField c!"customer_id" { name := c!"customer", «alias» := c!"cu" })), (modify (.as_ c!"name") (.field { formats := [(c!"default", c!"{} || ' ' || {}"), (c!"mysql", c!"CONCAT({}, ' ', {})")] } false false [(newField c!"first_name" { name := c!"customer", «alias» := c!"cu" }), (newField c!"last_name" { name := c!"customer", «alias» := c!"cu" })])), (newField c!"address" { name := c!"address", «alias» := c!"a" }), (modify (.as_ c!"zip code") (newField c!"postal_code" { name := c!"address", «alias» := c!"a" })), (newField c!"phone" { name := c!"address", «alias» := c!"a" }), (newField c!"city" { name := c!"city", «alias» := c!"" }), (newField c!"country" { name := c!"country", «alias» := c!"" }), (asOf (elseOf (.predCases [] [((newField c!"active" { name := c!"customer", «alias» := c!"cu" }), (.scalar (.str c!"active")))] .nil) (.scalar (.str c!""))) c!"notes"), (modify (.as_ c!"sid") (newField c!"store_id" { name := c!"customer", «alias» := c!"cu" }))]]).node] }
def FILM_LIST : ViewDecl :=
  { name := c!"film_list"
    fields := [none, some c!"fid", some c!"title", some c!"description", some c!"category", some c!"price", some c!"length", some c!"rating", some c!"actors"]
    ddl := fun _ => [.setQuery (Chain.select ⟨.sqlite, none⟩ (.from (.table c!"" c!"category" c!"" (fun _ => .none) (fun _ => .nil))) [.join .leftJoin (.table c!"" c!"film_category" c!"" (fun _ => .none) (fun _ => .nil)) [(Call.eq (newField c!"category_id" { name := c!"film_category", «alias» := c!"" }) (newField c!"category_id" { name := c!"category", «alias» := c!"" })).node], .join .leftJoin (.table c!"" c!"film" c!"" (fun _ => .none) (fun _ => .nil)) [(Call.eq (newField c!"film_id" { name := c!"film", «alias» := c!"" }) (newField c!"film_id" { name := c!"film_category", «alias» := c!"" })).node], .join .join (.table c!"" c!"film_actor" c!"" (fun _ => .none) (fun _ => .nil)) [(Call.eq (newField c!"film_id" { name := c!"film_actor", «alias» := c!"" }) (newField c!"film_id" { name := c!"film", «alias» := c!"" })).node], .join .join (.table c!"" c!"actor" c!"" (fun _ => .none) (fun _ => .nil)) [(Call.eq (newField c!"actor_id" { name := c!"actor", «alias» := c!"" }) (newField c!"actor_id" { name := c!"film_actor", «alias» := c!"" })).node], .groupBy [(newField c!"film_id" { name := c!"film", «alias» := c!"" }), (newField c!"title" { name := c!"film", «alias» := c!"" }), (newField c!"description" { name := c!"film", «alias» := c!"" }), (newField c!"name" { name := c!"category", «alias» := c!"" }), (newField c!"rental_rate" { name := c!"film", «alias» := c!"" }), (newField c!"length" { name := c!"film", «alias» := c!"" }), (newField c!"rating" { name := c!"film", «alias» := c!"" })], .select [(modify (.as_ c!"fid") (newField c!"film_id" { name := c!"film", «alias» := c!"" })), (newField c!"title" { name := c!"film", «alias» := c!"" }), (newField c!"description" { name := c!"film", «alias» := c!"" }), (modify (.as_ c!"category") (newField c!"name" { name := c!"category", «alias» := c!"" })), (modify (.as_ c!"price") (newField c!"rental_rate" { name := c!"film", «alias» := c!"" })), (newField c!"length" { name := c!"film", «alias» := c!"" }), (newField c!"rating" { name := c!"film", «alias» := c!"" }), (modify (.as_ c!"actors") (.field { formats := [(c!"default", c!"jsonb_agg({})"), (c!"sqlite", c!"json_group_array({})"), (c!"mysql", c!"json_arrayagg({})")] } false false [(.field { formats := [(c!"default", c!"{} || ' ' || {}"), (c!"mysql", c!"CONCAT({}, ' ', {})")] } false false [(newField c!"first_name" { name := c!"actor", «alias» := c!"" }), (newField c!"last_name" { name := c!"actor", «alias» := c!"" })])]))]]).node] }
def FULL_ADDRESS : ViewDecl :=
  { name := c!"full_address"
    fields := [none, some c!"country_id", some c!"city_id", some c!"address_id", some c!"country", some c!"city", some c!"address", some c!"address2", some c!"district", some c!"postal_code", some c!"phone", some c!"last_update"]
    ddl := fun _ => [.isMaterialized,
      .setQuery (Chain.select ⟨.sqlite, none⟩ (.from (.table c!"" c!"address" c!"" (fun _ => .none) (fun _ => .nil))) [.join .join (.table c!"" c!"city" c!"" (fun _ => .none) (fun _ => .nil)) [(Call.eq (newField c!"city_id" { name := c!"city", «alias» := c!"" }) (newField c!"city_id" { name := c!"address", «alias» := c!"" })).node], .join .join (.table c!"" c!"country" c!"" (fun _ => .none) (fun _ => .nil)) [(Call.eq (newField c!"country_id" { name := c!"country", «alias» := c!"" }) (newField c!"country_id" { name := c!"city", «alias» := c!"" })).node], .select [(newField c!"country_id" { name := c!"country", «alias» := c!"" }), (newField c!"city_id" { name := c!"city", «alias» := c!"" }), (newField c!"address_id" { name := c!"address", «alias» := c!"" }), (newField c!"country" { name := c!"country", «alias» := c!"" }), (newField c!"city" { name := c!"city", «alias» := c!"" }), (newField c!"address" { name := c!"address", «alias» := c!"" }), (newField c!"address2" { name := c!"address", «alias» := c!"" }), (newField c!"district" { name := c!"address", «alias» := c!"" }), (newField c!"postal_code" { name := c!"address", «alias» := c!"" }), (newField c!"phone" { name := c!"address", «alias» := c!"" }), (newField c!"last_update" { name := c!"address", «alias» := c!"" })]]).node,
      .index none [(newField c!"country_id" { name := c!"full_address", «alias» := c!"" }), (newField c!"city_id" { name := c!"full_address", «alias» := c!"" }), (newField c!"address_id" { name := c!"full_address", «alias» := c!"" })] [.unique, .include [(newField c!"country" { name := c!"full_address", «alias» := c!"" }), (newField c!"city" { name := c!"full_address", «alias» := c!"" }), (newField c!"address" { name := c!"full_address", «alias» := c!"" }), (newField c!"address2" { name := c!"full_address", «alias» := c!"" })]],
      .trigger c!"\nCREATE TRIGGER {1} AFTER INSERT OR UPDATE OR DELETE OR TRUNCATE ON {2}\nFOR EACH STATEMENT EXECUTE PROCEDURE refresh_full_address();\n" [(.literal c!"address_refresh_full_address_trg" []), (.table c!"" c!"address" c!"" (fun _ => .none) (fun _ => .nil))],
      .trigger c!"\nCREATE TRIGGER {1} AFTER INSERT OR UPDATE OR DELETE OR TRUNCATE ON {2}\nFOR EACH STATEMENT EXECUTE PROCEDURE refresh_full_address();\n" [(.literal c!"city_refresh_full_address_trg" []), (.table c!"" c!"city" c!"" (fun _ => .none) (fun _ => .nil))],
      .trigger c!"\nCREATE TRIGGER {1} AFTER INSERT OR UPDATE OR DELETE OR TRUNCATE ON {2}\nFOR EACH STATEMENT EXECUTE PROCEDURE refresh_full_address();\n" [(.literal c!"country_refresh_full_address_trg" []), (.table c!"" c!"country" c!"" (fun _ => .none) (fun _ => .nil))]] }
def NICER_BUT_SLOWER_FILM_LIST : ViewDecl :=
  { name := c!"nicer_but_slower_film_list"
    fields := [none, some c!"fid", some c!"title", some c!"description", some c!"category", some c!"price", some c!"length", some c!"rating", some c!"actors"]
    ddl := fun _ => [.setQuery (Chain.select ⟨.sqlite, none⟩ (.from (.table c!"" c!"category" c!"" (fun _ => .none) (fun _ => .nil))) [.join .leftJoin (.table c!"" c!"film_category" c!"" (fun _ => .none) (fun _ => .nil)) [(Call.eq (newField c!"category_id" { name := c!"film_category", «alias» := c!"" }) (newField c!"category_id" { name := c!"category", «alias» := c!"" })).node], .join .leftJoin (.table c!"" c!"film" c!"" (fun _ => .none) (fun _ => .nil)) [(Call.eq (newField c!"film_id" { name := c!"film", «alias» := c!"" }) (newField c!"film_id" { name := c!"film_category", «alias» := c!"" })).node], .join .join (.table c!"" c!"film_actor" c!"" (fun _ => .none) (fun _ => .nil)) [(Call.eq (newField c!"film_id" { name := c!"film_actor", «alias» := c!"" }) (newField c!"film_id" { name := c!"film", «alias» := c!"" })).node], .join .join (.table c!"" c!"actor" c!"" (fun _ => .none) (fun _ => .nil)) [(Call.eq (newField c!"actor_id" { name := c!"actor", «alias» := c!"" }) (newField c!"actor_id" { name := c!"film_actor", «alias» := c!"" })).node], .groupBy [(newField c!"film_id" { name := c!"film", «alias» := c!"" }), (newField c!"title" { name := c!"film", «alias» := c!"" }), (newField c!"description" { name := c!"film", «alias» := c!"" }), (newField c!"name" { name := c!"category", «alias» := c!"" }), (newField c!"rental_rate" { name := c!"film", «alias» := c!"" }), (newField c!"length" { name := c!"film", «alias» := c!"" }), (newField c!"rating" { name := c!"film", «alias» := c!"" })], .select [(modify (.as_ c!"fid") (newField c!"film_id" { name := c!"film", «alias» := c!"" })), (newField c!"title" { name := c!"film", «alias» := c!"" }), (newField c!"description" { name := c!"film", «alias» := c!"" }), (modify (.as_ c!"category") (newField c!"name" { name := c!"category", «alias» := c!"" })), (modify (.as_ c!"price") (newField c!"rental_rate" { name := c!"film", «alias» := c!"" })), (newField c!"length" { name := c!"film", «alias» := c!"" }), (newField c!"rating" { name := c!"film", «alias» := c!"" }), (modify (.as_ c!"actors") (.field { formats := [(c!"default", c!"jsonb_agg({})"), (c!"sqlite", c!"json_group_array({})"), (c!"mysql", c!"json_arrayagg({})")] } false false [(.field { formats := [(c!"default", c!"UPPER(SUBSTRING({1}, 1, 1)) || LOWER(SUBSTRING({1}, 2)) || ' ' || UPPER(SUBSTRING({2}, 1, 1)) || LOWER(SUBSTRING({2}, 2))"), (c!"mysql", c!"CONCAT(UPPER(SUBSTRING({1}, 1, 1)), LOWER(SUBSTRING({1}, 2)), ' ', UPPER(SUBSTRING({2}, 1, 1)), LOWER(SUBSTRING({2}, 2)))")] } false false [(newField c!"first_name" { name := c!"actor", «alias» := c!"" }), (newField c!"last_name" { name := c!"actor", «alias» := c!"" })])]))]]).node] }
def SALES_BY_FILM_CATEGORY : ViewDecl :=
  { name := c!"sales_by_film_category"
    fields := [none, some c!"category", some c!"total_sales"]
    ddl := fun _ => [.setQuery (Chain.select ⟨.sqlite, none⟩ (.from (.table c!"" c!"payment" c!"p" (fun _ => .none) (fun _ => .nil))) [.join .join (.table c!"" c!"rental" c!"r" (fun _ => .none) (fun _ => .nil)) [(Call.eq (newField c!"rental_id" { name := c!"rental", «alias» := c!"r" }) (newField c!"rental_id" { name := c!"payment", «alias» := c!"p" })).node], .join .join (.table c!"" c!"inventory" c!"i" (fun _ => .none) (fun _ => .nil)) [(Call.eq (newField c!"inventory_id" { name := c!"inventory", «alias» := c!"i" }) (newField c!"inventory_id" { name := c!"rental", «alias» := c!"r" })).node], .join .join (.table c!"" c!"film" c!"f" (fun _ => .none) (fun _ => .nil)) [(Call.eq (newField c!"film_id" { name := c!"film", «alias» := c!"f" }) (newField c!"film_id" { name := c!"inventory", «alias» := c!"i" })).node], .join .join (.table c!"" c!"film_category" c!"fc" (fun _ => .none) (fun _ => .nil)) [(Call.eq (newField c!"film_id" { name := c!"film_category", «alias» := c!"fc" }) (newField c!"film_id" { name := c!"film", «alias» := c!"f" })).node], .join .join (.table c!"" c!"category" c!"c" (fun _ => .none) (fun _ => .nil)) [(Call.eq (newField c!"category_id" { name := c!"category", «alias» := c!"c" }) (newField c!"category_id" { name := c!"film_category", «alias» := c!"fc" })).node], .groupBy [(newField c!"name" { name := c!"category", «alias» := c!"c" })], .orderBy [(modify (.desc) (Conform.fieldf c!"SUM({})" [(newField c!"amount" { name := c!"payment", «alias» := c!"p" })]))], .select [(modify (.as_ c!"category") (newField c!"name" { name := c!"category", «alias» := c!"c" })), (modify (.as_ c!"total_sales") (Conform.fieldf c!"SUM({})" [(newField c!"amount" { name := c!"payment", «alias» := c!"p" })]))]]).node] }
def SALES_BY_STORE : ViewDecl :=
  { name := c!"sales_by_store"
    fields := [none, some c!"store", some c!"manager", some c!"total_sales"]
    ddl := fun _ => [.setQuery (Chain.select ⟨.sqlite, none⟩ (.from (.table c!"" c!"payment" c!"p" (fun _ => .none) (fun _ => .nil))) [.join .join (.table c!"" c!"rental" c!"r" (fun _ => .none) (fun _ => .nil)) [(Call.eq (newField c!"rental_id" { name := c!"rental", «alias» := c!"r" }) (newField c!"rental_id" { name := c!"payment", «alias» := c!"p" })).node], .join .join (.table c!"" c!"inventory" c!"i" (fun _ => .none) (fun _ => .nil)) [(Call.eq (newField c!"inventory_id" { name := c!"inventory", «alias» := c!"i" }) (newField c!"inventory_id" { name := c!"rental", «alias» := c!"r" })).node], .join .join (.table c!"" c!"store" c!"s" (fun _ => .none) (fun _ => .nil)) [(Call.eq (newField c!"store_id" { name := c!"store", «alias» := c!"s" }) (newField c!"store_id" { name := c!"inventory", «alias» := c!"i" })).node], .join .join (.table c!"" c!"address" c!"a" (fun _ => .none) (fun _ => .nil)) [(Call.eq (newField c!"address_id" { name := c!"address", «alias» := c!"a" }) (newField c!"address_id" { name := c!"store", «alias» := c!"s" })).node], .join .join (.table c!"" c!"city" c!"ci" (fun _ => .none) (fun _ => .nil)) [(Call.eq (newField c!"city_id" { name := c!"city", «alias» := c!"ci" }) (newField c!"city_id" { name := c!"address", «alias» := c!"a" })).node], .join .join (.table c!"" c!"country" c!"co" (fun _ => .none) (fun _ => .nil)) [(Call.eq (newField c!"country_id" { name := c!"country", «alias» := c!"co" }) (newField c!"country_id" { name := c!"city", «alias» := c!"ci" })).node], .join .join (.table c!"" c!"staff" c!"m" (fun _ => .none) (fun _ => .nil)) [(Call.eq (newField c!"staff_id" { name := c!"staff", «alias» := c!"m" }) (newField c!"manager_staff_id" { name := c!"store", «alias» := c!"s" })).node], .groupBy [(newField c!"country" { name := c!"country", «alias» := c!"co" }), (newField c!"city" { name := c!"city", «alias» := c!"ci" }), (newField c!"store_id" { name := c!"store", «alias» := c!"s" }), (newField c!"first_name" { name := c!"staff", «alias» := c!"m" }), (newField c!"last_name" { name := c!"staff", «alias» := c!"m" })], .orderBy [(newField c!"country" { name := c!"country", «alias» := c!"co" }), (newField c!"city" { name := c!"city", «alias» := c!"ci" })], .select [(modify (.as_ c!"store") (.field { formats := [(c!"default", c!"{} || ',' || {}"), (c!"mysql", c!"CONCAT({}, ',', {})")] } false false [(newField c!"city" { name := c!"city", «alias» := c!"ci" }), (newField c!"country" { name := c!"country", «alias» := c!"co" })])), (modify (.as_ c!"manager") (.field { formats := [(c!"default", c!"{} || ' ' || {}"), (c!"mysql", c!"CONCAT({}, ' ', {})")] } false false [(newField c!"first_name" { name := c!"staff", «alias» := c!"m" }), (newField c!"last_name" { name := c!"staff", «alias» := c!"m" })])), (modify (.as_ c!"total_sales") (Conform.fieldf c!"SUM({})" [(newField c!"amount" { name := c!"payment", «alias» := c!"p" })]))]]).node] }
def STAFF_LIST : ViewDecl :=
  { name := c!"staff_list"
    fields := [none, some c!"id", some c!"name", some c!"address", some c!"zip code", some c!"phone", some c!"city", some c!"country", some c!"sid"]
    ddl := fun _ => [.setQuery (Chain.select ⟨.sqlite, none⟩ (.from (.table c!"" c!"staff" c!"s" (fun _ => .none) (fun _ => .nil))) [.join .join (.table c!"" c!"address" c!"a" (fun _ => .none) (fun _ => .nil)) [(Call.eq (newField c!"address_id" { name := c!"address", «alias» := c!"a" }) (newField c!"address_id" { name := c!"staff", «alias» := c!"s" })).node], .join .join (.table c!"" c!"city" c!"ci" (fun _ => .none) (fun _ => .nil)) [(Call.eq (newField c!"city_id" { name := c!"city", «alias» := c!"ci" }) (newField c!"city_id" { name := c!"address", «alias» := c!"a" })).node], .join .join (.table c!"" c!"country" c!"co" (fun _ => .none) (fun _ => .nil)) [(Call.eq (newField c!"country_id" { name := c!"country", «alias» := c!"co" }) (newField c!"country_id" { name := c!"city", «alias» := c!"ci" })).node], .select [(modify (.as_ c!"id") (newField c!"staff_id" { name := c!"staff", «alias» := c!"s" })), (modify (.as_ c!"name") (.field { formats := [(c!"default", c!"{} || ' ' || {}"), (c!"mysql", c!"CONCAT({}, ' ', {})")] } false false [(newField c!"first_name" { name := c!"staff", «alias» := c!"s" }), (newField c!"last_name" { name := c!"staff", «alias» := c!"s" })])), (newField c!"address" { name := c!"address", «alias» := c!"a" }), (modify (.as_ c!"zip code") (newField c!"postal_code" { name := c!"address", «alias» := c!"a" })), (newField c!"phone" { name := c!"address", «alias» := c!"a" }), (newField c!"city" { name := c!"city", «alias» := c!"ci" }), (newField c!"country" { name := c!"country", «alias» := c!"co" }), (modify (.as_ c!"sid") (newField c!"store_id" { name := c!"staff", «alias» := c!"s" }))]]).node] }
def tables : List TableSource := [ACTOR, ADDRESS, CATEGORY, CITY, COUNTRY, CUSTOMER, FILM, FILM_ACTOR, FILM_ACTOR_REVIEW, FILM_CATEGORY, FILM_TEXT, INVENTORY, LANGUAGE, PAYMENT, RENTAL, STAFF, STORE]
def views : List ViewDecl := [ACTOR_INFO, CUSTOMER_LIST, FILM_LIST, FULL_ADDRESS, NICER_BUT_SLOWER_FILM_LIST, SALES_BY_FILM_CATEGORY, SALES_BY_STORE, STAFF_LIST]
def wanted : Res DatabaseMetadata :=
  (withSources (fun _ => .nil) num .mysql tables { dialect := some .mysql }).bind (withViews (fun _ => .nil) faultyFields .mysql views)
def script : Res Str := wanted.bind fun m => (migrate (CreateMissing ||| UpdateExisting) {} m).bind Migration.script
def expected : Str := c!"CREATE TABLE IF NOT EXISTS actor (\n    actor_id INT AUTO_INCREMENT\n    ,first_name VARCHAR(45) NOT NULL\n    ,last_name VARCHAR(45) NOT NULL\n    ,full_name VARCHAR(255) GENERATED ALWAYS AS (CONCAT(first_name, ' ', last_name)) VIRTUAL\n    ,full_name_reversed VARCHAR(255) GENERATED ALWAYS AS (CONCAT(last_name, ' ', first_name)) STORED\n    ,last_update DATETIME NOT NULL DEFAULT CURRENT_TIMESTAMP ON UPDATE CURRENT_TIMESTAMP\n\n    ,PRIMARY KEY (actor_id)\n    ,INDEX actor_last_name_idx (last_name)\n);\n\nCREATE TABLE IF NOT EXISTS address (\n    address_id INT AUTO_INCREMENT\n    ,address VARCHAR(50) NOT NULL\n    ,address2 VARCHAR(50)\n    ,district VARCHAR(20) NOT NULL\n    ,city_id INT NOT NULL\n    ,postal_code VARCHAR(10)\n    ,phone VARCHAR(20) NOT NULL\n    ,last_update DATETIME NOT NULL DEFAULT CURRENT_TIMESTAMP ON UPDATE CURRENT_TIMESTAMP\n\n    ,PRIMARY KEY (address_id)\n    ,INDEX address_city_id_idx (city_id)\n);\n\nCREATE TABLE IF NOT EXISTS category (\n    category_id INT AUTO_INCREMENT\n    ,name VARCHAR(25) NOT NULL\n    ,last_update DATETIME NOT NULL DEFAULT CURRENT_TIMESTAMP ON UPDATE CURRENT_TIMESTAMP\n\n    ,PRIMARY KEY (category_id)\n);\n\nCREATE TABLE IF NOT EXISTS city (\n    city_id INT AUTO_INCREMENT\n    ,city VARCHAR(50) NOT NULL\n    ,country_id INT NOT NULL\n    ,last_update DATETIME NOT NULL DEFAULT CURRENT_TIMESTAMP ON UPDATE CURRENT_TIMESTAMP\n\n    ,PRIMARY KEY (city_id)\n    ,INDEX city_country_id_idx (country_id)\n);\n\nCREATE TABLE IF NOT EXISTS country (\n    country_id INT AUTO_INCREMENT\n    ,country VARCHAR(50) NOT NULL\n    ,last_update DATETIME NOT NULL DEFAULT CURRENT_TIMESTAMP ON UPDATE CURRENT_TIMESTAMP\n\n    ,PRIMARY KEY (country_id)\n);\n\nCREATE TABLE IF NOT EXISTS customer (\n    customer_id INT AUTO_INCREMENT\n    ,store_id INT NOT NULL\n    ,first_name VARCHAR(45) NOT NULL\n    ,last_name VARCHAR(45) NOT NULL\n    ,email VARCHAR(50)\n    ,address_id INT NOT NULL\n    ,active BOOLEAN NOT NULL DEFAULT TRUE\n    ,data JSON\n    ,create_date DATETIME NOT NULL DEFAULT CURRENT_TIMESTAMP\n    ,last_update DATETIME NOT NULL DEFAULT CURRENT_TIMESTAMP ON UPDATE CURRENT_TIMESTAMP\n\n    ,CONSTRAINT customer_email_first_name_last_name_key UNIQUE (email, first_name, last_name)\n    ,PRIMARY KEY (customer_id)\n    ,CONSTRAINT customer_email_key UNIQUE (email)\n    ,INDEX customer_store_id_idx (store_id)\n    ,INDEX customer_last_name_idx (last_name)\n    ,INDEX customer_address_id_idx (address_id)\n);\n\nCREATE TABLE IF NOT EXISTS film (\n    film_id INT AUTO_INCREMENT\n    ,title VARCHAR(255) NOT NULL\n    ,description TEXT\n    ,release_year INT\n    ,language_id INT NOT NULL\n    ,original_language_id INT\n    ,rental_duration INT NOT NULL DEFAULT 3\n    ,rental_rate DECIMAL(4,2) NOT NULL DEFAULT 4.99\n    ,length INT\n    ,replacement_cost DECIMAL(5,2) NOT NULL DEFAULT 19.99\n    ,rating ENUM('G','PG','PG-13','R','NC-17') DEFAULT 'G'\n    ,special_features JSON\n    ,last_update DATETIME NOT NULL DEFAULT CURRENT_TIMESTAMP ON UPDATE CURRENT_TIMESTAMP\n\n    ,PRIMARY KEY (film_id)\n    ,CONSTRAINT film_release_year_check CHECK (release_year >= 1901 AND release_year <= 2155)\n    ,INDEX film_title_idx (title)\n    ,INDEX film_language_id_idx (language_id)\n    ,INDEX film_original_language_id_idx (original_language_id)\n);\n\nCREATE TABLE IF NOT EXISTS film_actor (\n    film_id INT NOT NULL\n    ,actor_id INT NOT NULL\n    ,last_update DATETIME NOT NULL DEFAULT CURRENT_TIMESTAMP ON UPDATE CURRENT_TIMESTAMP\n\n    ,UNIQUE INDEX film_actor_actor_id_film_id_idx (actor_id, film_id)\n    ,INDEX film_actor_film_id_idx (film_id)\n);\n\nCREATE TABLE IF NOT EXISTS film_actor_review (\n    film_id INT\n    ,actor_id INT\n    ,review_title VARCHAR(50) NOT NULL DEFAULT '' COLLATE latin1_swedish_ci\n    ,review_body VARCHAR(255) NOT NULL DEFAULT ''\n    ,metadata JSON\n    ,last_update DATETIME NOT NULL DEFAULT CURRENT_TIMESTAMP ON UPDATE CURRENT_TIMESTAMP\n    ,delete_date DATETIME\n\n    ,PRIMARY KEY (film_id, actor_id)\n    ,CONSTRAINT film_actor_review_check CHECK (LENGTH(review_body) > LENGTH(review_title))\n    ,INDEX film_actor_review_misc (film_id, (SUBSTR(review_body, 2, 10)), (CONCAT(review_title, ' abcd')), (CAST(metadata->>'$.score' AS SIGNED)))\n);\n\nCREATE TABLE IF NOT EXISTS film_category (\n    film_id INT NOT NULL\n    ,category_id INT NOT NULL\n    ,last_update DATETIME NOT NULL DEFAULT CURRENT_TIMESTAMP ON UPDATE CURRENT_TIMESTAMP\n);\n\nCREATE TABLE IF NOT EXISTS film_text (\n    film_id INT NOT NULL\n    ,title VARCHAR(255)\n    ,description TEXT\n\n    ,PRIMARY KEY (film_id)\n    ,FULLTEXT INDEX film_text_title_description_idx (title, description)\n);\n\nCREATE TABLE IF NOT EXISTS inventory (\n    inventory_id INT AUTO_INCREMENT\n    ,film_id INT NOT NULL\n    ,store_id INT NOT NULL\n    ,last_update DATETIME NOT NULL DEFAULT CURRENT_TIMESTAMP ON UPDATE CURRENT_TIMESTAMP\n\n    ,PRIMARY KEY (inventory_id)\n    ,INDEX inventory_store_id_film_id_idx (store_id, film_id)\n);\n\nCREATE TABLE IF NOT EXISTS language (\n    language_id INT AUTO_INCREMENT\n    ,name CHAR(20) NOT NULL\n    ,last_update DATETIME NOT NULL DEFAULT CURRENT_TIMESTAMP ON UPDATE CURRENT_TIMESTAMP\n\n    ,PRIMARY KEY (language_id)\n);\n\nCREATE TABLE IF NOT EXISTS payment (\n    payment_id INT AUTO_INCREMENT\n    ,customer_id INT NOT NULL\n    ,staff_id INT NOT NULL\n    ,rental_id INT\n    ,amount DECIMAL(5,2) NOT NULL\n    ,payment_date DATETIME NOT NULL\n\n    ,PRIMARY KEY (payment_id)\n    ,INDEX payment_customer_id_idx (customer_id)\n    ,INDEX payment_staff_id_idx (staff_id)\n);\n\nCREATE TABLE IF NOT EXISTS rental (\n    rental_id INT AUTO_INCREMENT\n    ,rental_date DATETIME NOT NULL\n    ,inventory_id INT NOT NULL\n    ,customer_id INT NOT NULL\n    ,return_date DATETIME\n    ,staff_id INT NOT NULL\n    ,last_update DATETIME NOT NULL DEFAULT CURRENT_TIMESTAMP ON UPDATE CURRENT_TIMESTAMP\n\n    ,PRIMARY KEY (rental_id)\n    ,UNIQUE INDEX rental_rental_date_inventory_id_customer_id_idx (rental_date, inventory_id, customer_id)\n    ,INDEX rental_inventory_id_idx (inventory_id)\n    ,INDEX rental_customer_id_idx (customer_id)\n    ,INDEX rental_staff_id_idx (staff_id)\n);\n\nCREATE TABLE IF NOT EXISTS staff (\n    staff_id INT AUTO_INCREMENT\n    ,first_name VARCHAR(45) NOT NULL\n    ,last_name VARCHAR(45) NOT NULL\n    ,address_id INT NOT NULL\n    ,email VARCHAR(50)\n    ,store_id INT\n    ,active BOOLEAN NOT NULL DEFAULT TRUE\n    ,username VARCHAR(16) NOT NULL\n    ,password VARCHAR(40)\n    ,last_update DATETIME NOT NULL DEFAULT CURRENT_TIMESTAMP ON UPDATE CURRENT_TIMESTAMP\n    ,picture BLOB\n\n    ,PRIMARY KEY (staff_id)\n);\n\nCREATE TABLE IF NOT EXISTS store (\n    store_id INT AUTO_INCREMENT\n    ,manager_staff_id INT NOT NULL\n    ,address_id INT NOT NULL\n    ,last_update DATETIME NOT NULL DEFAULT CURRENT_TIMESTAMP ON UPDATE CURRENT_TIMESTAMP\n\n    ,PRIMARY KEY (store_id)\n    ,UNIQUE INDEX store_manager_staff_id_idx (manager_staff_id)\n);\n\nCREATE OR REPLACE VIEW actor_info AS SELECT a.actor_id, a.first_name, a.last_name, json_objectagg(c.name, (SELECT json_arrayagg(f.title) FROM film AS f JOIN film_category AS fc ON fc.film_id = f.film_id JOIN film_actor AS fa ON fa.film_id = f.film_id WHERE fc.category_id = c.category_id AND fa.actor_id = a.actor_id GROUP BY fa.actor_id)) AS film_info FROM actor AS a LEFT JOIN film_actor AS fa ON fa.actor_id = a.actor_id LEFT JOIN film_category AS fc ON fc.film_id = fa.film_id LEFT JOIN category AS c ON c.category_id = fc.category_id GROUP BY a.actor_id, a.first_name, a.last_name;\n\nCREATE OR REPLACE VIEW customer_list AS SELECT cu.customer_id AS id, CONCAT(cu.first_name, ' ', cu.last_name) AS name, a.address, a.postal_code AS `zip code`, a.phone, city.city, country.country, CASE WHEN cu.active THEN 'active' ELSE '' END AS notes, cu.store_id AS sid FROM customer AS cu JOIN address AS a ON a.address_id = cu.address_id JOIN city ON city.city_id = a.city_id JOIN country ON country.country_id = city.country_id;\n\nCREATE OR REPLACE VIEW film_list AS SELECT film.film_id AS fid, film.title, film.description, category.name AS category, film.rental_rate AS price, film.length, film.rating, json_arrayagg(CONCAT(actor.first_name, ' ', actor.last_name)) AS actors FROM category LEFT JOIN film_category ON film_category.category_id = category.category_id LEFT JOIN film ON film.film_id = film_category.film_id JOIN film_actor ON film_actor.film_id = film.film_id JOIN actor ON actor.actor_id = film_actor.actor_id GROUP BY film.film_id, film.title, film.description, category.name, film.rental_rate, film.length, film.rating;\n\nCREATE OR REPLACE VIEW full_address AS SELECT country.country_id, city.city_id, address.address_id, country.country, city.city, address.address, address.address2, address.district, address.postal_code, address.phone, address.last_update FROM address JOIN city ON city.city_id = address.city_id JOIN country ON country.country_id = city.country_id;\n\nCREATE OR REPLACE VIEW nicer_but_slower_film_list AS SELECT film.film_id AS fid, film.title, film.description, category.name AS category, film.rental_rate AS price, film.length, film.rating, json_arrayagg(CONCAT(UPPER(SUBSTRING(actor.first_name, 1, 1)), LOWER(SUBSTRING(actor.first_name, 2)), ' ', UPPER(SUBSTRING(actor.last_name, 1, 1)), LOWER(SUBSTRING(actor.last_name, 2)))) AS actors FROM category LEFT JOIN film_category ON film_category.category_id = category.category_id LEFT JOIN film ON film.film_id = film_category.film_id JOIN film_actor ON film_actor.film_id = film.film_id JOIN actor ON actor.actor_id = film_actor.actor_id GROUP BY film.film_id, film.title, film.description, category.name, film.rental_rate, film.length, film.rating;\n\nCREATE OR REPLACE VIEW sales_by_film_category AS SELECT c.name AS category, SUM(p.amount) AS total_sales FROM payment AS p JOIN rental AS r ON r.rental_id = p.rental_id JOIN inventory AS i ON i.inventory_id = r.inventory_id JOIN film AS f ON f.film_id = i.film_id JOIN film_category AS fc ON fc.film_id = f.film_id JOIN category AS c ON c.category_id = fc.category_id GROUP BY c.name ORDER BY SUM(p.amount) DESC;\n\nCREATE OR REPLACE VIEW sales_by_store AS SELECT CONCAT(ci.city, ',', co.country) AS store, CONCAT(m.first_name, ' ', m.last_name) AS manager, SUM(p.amount) AS total_sales FROM payment AS p JOIN rental AS r ON r.rental_id = p.rental_id JOIN inventory AS i ON i.inventory_id = r.inventory_id JOIN store AS s ON s.store_id = i.store_id JOIN address AS a ON a.address_id = s.address_id JOIN city AS ci ON ci.city_id = a.city_id JOIN country AS co ON co.country_id = ci.country_id JOIN staff AS m ON m.staff_id = s.manager_staff_id GROUP BY co.country, ci.city, s.store_id, m.first_name, m.last_name ORDER BY co.country, ci.city;\n\nCREATE OR REPLACE VIEW staff_list AS SELECT s.staff_id AS id, CONCAT(s.first_name, ' ', s.last_name) AS name, a.address, a.postal_code AS `zip code`, a.phone, ci.city, co.country, s.store_id AS sid FROM staff AS s JOIN address AS a ON a.address_id = s.address_id JOIN city AS ci ON ci.city_id = a.city_id JOIN country AS co ON co.country_id = ci.country_id;\n\n-- DELIMITER ;;\n\nCREATE TRIGGER film_after_insert_trg AFTER INSERT ON film FOR EACH ROW BEGIN\n    INSERT INTO film_text (film_id, title, description) VALUES (NEW.film_id, NEW.title, NEW.description);\nEND; -- ;;\n\nCREATE TRIGGER film_after_update_trg AFTER UPDATE ON film FOR EACH ROW BEGIN\n    IF OLD.title <> NEW.title OR OLD.description <> NEW.description THEN\n        UPDATE film_text\n        SET title = NEW.title, description = NEW.description, film_id = NEW.film_id\n        WHERE film_id = OLD.film_id;\n    END IF;\nEND; -- ;;\n\nCREATE TRIGGER film_after_delete_trg AFTER DELETE ON film FOR EACH ROW BEGIN\n    DELETE FROM film_text WHERE film_id = OLD.film_id;\nEND; -- ;;\n\n-- DELIMITER ;\n\nALTER TABLE address\n    ADD CONSTRAINT address_city_id_fkey FOREIGN KEY (city_id) REFERENCES city (city_id) ON UPDATE CASCADE ON DELETE RESTRICT;\n\nALTER TABLE city\n    ADD CONSTRAINT city_country_id_fkey FOREIGN KEY (country_id) REFERENCES country (country_id) ON UPDATE CASCADE ON DELETE RESTRICT;\n\nALTER TABLE customer\n    ADD CONSTRAINT customer_address_id_fkey FOREIGN KEY (address_id) REFERENCES address (address_id) ON UPDATE CASCADE ON DELETE RESTRICT;\n\nALTER TABLE film\n    ADD CONSTRAINT film_language_id_fkey FOREIGN KEY (language_id) REFERENCES language (language_id) ON UPDATE CASCADE ON DELETE RESTRICT\n    ,ADD CONSTRAINT film_original_language_id_fkey FOREIGN KEY (original_language_id) REFERENCES language (language_id) ON UPDATE CASCADE ON DELETE RESTRICT;\n\nALTER TABLE film_actor\n    ADD CONSTRAINT film_actor_film_id_fkey FOREIGN KEY (film_id) REFERENCES film (film_id) ON UPDATE CASCADE ON DELETE RESTRICT\n    ,ADD CONSTRAINT film_actor_actor_id_fkey FOREIGN KEY (actor_id) REFERENCES actor (actor_id) ON UPDATE CASCADE ON DELETE RESTRICT;\n\nALTER TABLE film_actor_review\n    ADD CONSTRAINT film_actor_review_film_id_actor_id_fkey FOREIGN KEY (film_id, actor_id) REFERENCES film_actor (film_id, actor_id) ON UPDATE CASCADE;\n\nALTER TABLE film_category\n    ADD CONSTRAINT film_category_film_id_fkey FOREIGN KEY (film_id) REFERENCES film (film_id) ON UPDATE CASCADE ON DELETE RESTRICT\n    ,ADD CONSTRAINT film_category_category_id_fkey FOREIGN KEY (category_id) REFERENCES category (category_id) ON UPDATE CASCADE ON DELETE RESTRICT;\n\nALTER TABLE inventory\n    ADD CONSTRAINT inventory_film_id_fkey FOREIGN KEY (film_id) REFERENCES film (film_id) ON UPDATE CASCADE ON DELETE RESTRICT\n    ,ADD CONSTRAINT inventory_store_id_fkey FOREIGN KEY (store_id) REFERENCES store (store_id) ON UPDATE CASCADE ON DELETE RESTRICT;\n\nALTER TABLE payment\n    ADD CONSTRAINT payment_customer_id_fkey FOREIGN KEY (customer_id) REFERENCES customer (customer_id) ON UPDATE CASCADE ON DELETE RESTRICT\n    ,ADD CONSTRAINT payment_staff_id_fkey FOREIGN KEY (staff_id) REFERENCES staff (staff_id) ON UPDATE CASCADE ON DELETE RESTRICT\n    ,ADD CONSTRAINT payment_rental_id_fkey FOREIGN KEY (rental_id) REFERENCES rental (rental_id) ON UPDATE CASCADE ON DELETE RESTRICT;\n\nALTER TABLE rental\n    ADD CONSTRAINT rental_inventory_id_fkey FOREIGN KEY (inventory_id) REFERENCES inventory (inventory_id) ON UPDATE CASCADE ON DELETE RESTRICT\n    ,ADD CONSTRAINT rental_customer_id_fkey FOREIGN KEY (customer_id) REFERENCES customer (customer_id) ON UPDATE CASCADE ON DELETE RESTRICT\n    ,ADD CONSTRAINT rental_staff_id_fkey FOREIGN KEY (staff_id) REFERENCES staff (staff_id) ON UPDATE CASCADE ON DELETE RESTRICT;\n\nALTER TABLE staff\n    ADD CONSTRAINT staff_address_id_fkey FOREIGN KEY (address_id) REFERENCES address (address_id) ON UPDATE CASCADE ON DELETE RESTRICT\n    ,ADD CONSTRAINT staff_store_id_fkey FOREIGN KEY (store_id) REFERENCES store (store_id);\n\nALTER TABLE store\n    ADD CONSTRAINT store_manager_staff_id_fkey FOREIGN KEY (manager_staff_id) REFERENCES staff (staff_id) ON UPDATE CASCADE ON DELETE RESTRICT\n    ,ADD CONSTRAINT store_address_id_fkey FOREIGN KEY (address_id) REFERENCES address (address_id) ON UPDATE CASCADE ON DELETE RESTRICT;"
/-- /repo/ddl/testdata/mysql_sakila_up.sql -/
example : gave script expected = true := by decide +kernel

end Conform.Sakila.mysql
